import Verif.Protocol.ParseLemmas
import Verif.Gen.Spec.OffsetFetch
/-!
Generated by tools/gen_protocol.py: the OffsetFetch messages are written and read as the protocol says.
-/
namespace Kafka.Msg

open Protocol

/-- `OffsetFetchRequestTopic9` as a value of the protocol. -/
def OffsetFetchRequestTopic9.val (t : OffsetFetchRequestTopic9) : Val :=
  .struct [("Name", .str (some t.Name)),
    ("PartitionIndexes", ofScalars .int32 t.PartitionIndexes)]

theorem OffsetFetchRequestTopic9.conforms {v : Int16} (hv : 0 ≤ v) (t : OffsetFetchRequestTopic9) :
    Protocol.OffsetFetchRequestTopic.wire false v (OffsetFetchRequestTopic9.val t) = OffsetFetchRequestTopic9.wire v t :=
  Writes.eq <|
    Writes.all hv (Protocol.wire_string v t.Name) <|
    Writes.all hv (Protocol.wire_int32Array v t.PartitionIndexes) <|
    Writes.done

/-- No slice of scalars is nil where the protocol has no null. -/
structure OffsetFetchRequestTopic9.Full (v : Int16) (t : OffsetFetchRequestTopic9) : Prop where
  PartitionIndexes : t.PartitionIndexes.NotNil

theorem OffsetFetchRequestTopic9.valid {v : Int16} (_hv : 0 ≤ v) (t : OffsetFetchRequestTopic9) (h : t.Fits v) (hf : t.Full v) :
    Protocol.OffsetFetchRequestTopic.Valid true v (OffsetFetchRequestTopic9.val t) :=
  Valids.all (valid_string (h.Name)) <|
    Valids.all (valid_int32Array (h.PartitionIndexes) (.inr (hf.PartitionIndexes))) <|
    trivial

/-- `OffsetFetchRequest` as a value of the protocol. -/
def OffsetFetchRequest.val (t : OffsetFetchRequest) : Val :=
  .struct [("GroupId", .str (some t.GroupId)),
    ("Topics", ofStructs OffsetFetchRequestTopic9.val t.Topics)]

theorem OffsetFetchRequest.conforms {v : Int16} (hv : 0 ≤ v) (t : OffsetFetchRequest) :
    Protocol.OffsetFetchRequest.wire false v (OffsetFetchRequest.val t) = OffsetFetchRequest.wire v t :=
  Writes.eq <|
    Writes.all hv (Protocol.wire_string v t.GroupId) <|
    Writes.all hv (Protocol.wire_structs v (OffsetFetchRequestTopic9.conforms hv) t.Topics) <|
    Writes.done

/-- No slice of scalars is nil where the protocol has no null. -/
structure OffsetFetchRequest.Full (v : Int16) (t : OffsetFetchRequest) : Prop where
  Topics : FullAll (OffsetFetchRequestTopic9.Full v) t.Topics

theorem OffsetFetchRequest.valid {v : Int16} (hv : 0 ≤ v) (t : OffsetFetchRequest) (h : t.Fits v) (hf : t.Full v) :
    Protocol.OffsetFetchRequest.Valid true v (OffsetFetchRequest.val t) :=
  Valids.all (valid_string (h.GroupId)) <|
    Valids.all (valid_structs (fun y h hf => OffsetFetchRequestTopic9.valid hv y h hf) (h.Topics) (hf.Topics)) <|
    trivial

/-- `OffsetFetchResponsePartition9` as a value of the protocol. -/
def OffsetFetchResponsePartition9.val (t : OffsetFetchResponsePartition9) : Val :=
  .struct [("PartitionIndex", .int32 t.PartitionIndex),
    ("CommittedOffset", .int64 t.CommittedOffset),
    ("CommittedLeaderEpoch", .int32 t.CommittedLeaderEpoch),
    ("Metadata", .str (some t.Metadata)),
    ("ErrorCode", .int16 t.ErrorCode)]

theorem OffsetFetchResponsePartition9.conforms {v : Int16} (hv : 0 ≤ v) (t : OffsetFetchResponsePartition9) :
    Protocol.OffsetFetchResponsePartition.wire false v (OffsetFetchResponsePartition9.val t) = OffsetFetchResponsePartition9.wire v t :=
  Writes.eq <|
    Writes.all hv (Protocol.wire_int32 v t.PartitionIndex) <|
    Writes.all hv (Protocol.wire_int64 v t.CommittedOffset) <|
    Writes.since (Protocol.wire_int32 v t.CommittedLeaderEpoch) <|
    Writes.all hv (Protocol.wire_string v t.Metadata) <|
    Writes.all hv (Protocol.wire_int16 v t.ErrorCode) <|
    Writes.done

/-- There is nothing that may not be nil. -/
def OffsetFetchResponsePartition9.Full (_v : Int16) (_t : OffsetFetchResponsePartition9) : Prop := True

theorem OffsetFetchResponsePartition9.valid {v : Int16} (_hv : 0 ≤ v) (t : OffsetFetchResponsePartition9) (h : t.Fits v) (_hf : t.Full v) :
    Protocol.OffsetFetchResponsePartition.Valid true v (OffsetFetchResponsePartition9.val t) :=
  Valids.all trivial <|
    Valids.all trivial <|
    Valids.since (fun _ => trivial) <|
    Valids.all (valid_string (h.Metadata)) <|
    Valids.all trivial <|
    trivial

/-- What `OffsetFetchResponsePartition9` holds after reading the value `x` into `t0`. -/
def OffsetFetchResponsePartition9.of (v : Int16) (x : Val) (t0 : OffsetFetchResponsePartition9) : OffsetFetchResponsePartition9 :=
  { PartitionIndex := (x.get "PartitionIndex").toInt32,
    CommittedOffset := (x.get "CommittedOffset").toInt64,
    CommittedLeaderEpoch := if v ≥ 5 then (x.get "CommittedLeaderEpoch").toInt32 else t0.CommittedLeaderEpoch,
    Metadata := (x.get "Metadata").toStr,
    ErrorCode := (x.get "ErrorCode").toInt16 }

theorem OffsetFetchResponsePartition9.decodes {v : Int16} (hv : 0 ≤ v) (x : Val) (h : Protocol.OffsetFetchResponsePartition.Valid false v x) (t0 : OffsetFetchResponsePartition9) :
    Reads (OffsetFetchResponsePartition9.decode v t0) (Protocol.OffsetFetchResponsePartition.wire false v x) (OffsetFetchResponsePartition9.of v x t0) :=
  Reads.congr (((Step.field (set := fun (t : OffsetFetchResponsePartition9) x => { t with PartitionIndex := x }) (read_int32 (Fields.Valid.head (h) hv)))
      |>.andThen (Step.field (set := fun (t : OffsetFetchResponsePartition9) x => { t with CommittedOffset := x }) (read_int64 (Fields.Valid.head (Fields.Valid.tail h) hv)))
      |>.andThen (Step.optField (c := v ≥ 5) (set := fun (t : OffsetFetchResponsePartition9) x => { t with CommittedLeaderEpoch := x }) (·.CommittedLeaderEpoch) (fun _ => rfl) fun hc => read_int32 (Fields.Valid.head (Fields.Valid.tail (Fields.Valid.tail h)) hc))
      |>.andThen (Step.field (set := fun (t : OffsetFetchResponsePartition9) x => { t with Metadata := x }) (read_string (Fields.Valid.head (Fields.Valid.tail (Fields.Valid.tail (Fields.Valid.tail h))) hv)))
      |>.andThen (Step.field (set := fun (t : OffsetFetchResponsePartition9) x => { t with ErrorCode := x }) (read_int16 (Fields.Valid.head (Fields.Valid.tail (Fields.Valid.tail (Fields.Valid.tail (Fields.Valid.tail h)))) hv))) : Step _ _ _) t0)
    (Writes.eq (fs := Protocol.OffsetFetchResponsePartition) (v := v) (x := x) <| Writes.all hv rfl <| Writes.all hv rfl <| Writes.since rfl <| Writes.all hv rfl <| Writes.all hv rfl <| Writes.done).symm rfl

theorem OffsetFetchResponsePartition9.parses {v : Int16} (hv : 0 ≤ v) (t0 : OffsetFetchResponsePartition9) :
    Parses (OffsetFetchResponsePartition9.decode v t0) ((Ty.struct Protocol.OffsetFetchResponsePartition).parse v) (fun x => OffsetFetchResponsePartition9.of v x t0) :=
  FParses.parses (fs := Protocol.OffsetFetchResponsePartition)
    (FParses.field hv (set := fun (t : OffsetFetchResponsePartition9) x => { t with PartitionIndex := x }) par_int32 <|
    FParses.field hv (set := fun (t : OffsetFetchResponsePartition9) x => { t with CommittedOffset := x }) par_int64 <|
    FParses.optField (c := v ≥ 5) Iff.rfl (set := fun (t : OffsetFetchResponsePartition9) x => { t with CommittedLeaderEpoch := x }) (·.CommittedLeaderEpoch) (fun _ => rfl) par_int32 <|
    FParses.field hv (set := fun (t : OffsetFetchResponsePartition9) x => { t with Metadata := x }) par_string <|
    FParses.field hv (set := fun (t : OffsetFetchResponsePartition9) x => { t with ErrorCode := x }) par_int16 <|
    FParses.done)
    (by simp only [OffsetFetchResponsePartition9.decode, Dec.andThen_assoc, Dec.andThen_nop]) (Fields.distinct_nodup _ (by decide +kernel)) (fun _ _ => rfl) t0

theorem OffsetFetchResponsePartition9.shown {v : Int16} (hv : 0 ≤ v) (x : Val) (h : Protocol.OffsetFetchResponsePartition.Typed v x) :
    Protocol.OffsetFetchResponsePartition.shows v x (OffsetFetchResponsePartition9.val (OffsetFetchResponsePartition9.of v x {})) = true :=
  Shows.all hv (show_int32 (Fields.Typed.head (h) hv)) <|
    Shows.all hv (show_int64 (Fields.Typed.head (Fields.Typed.tail h) hv)) <|
    Shows.since (.int32) rfl (fun hc => show_int32 (Fields.Typed.head (Fields.Typed.tail (Fields.Typed.tail h)) hc)) rfl <|
    Shows.all hv (show_string (Fields.Typed.head (Fields.Typed.tail (Fields.Typed.tail (Fields.Typed.tail h))) hv)) <|
    Shows.all hv (show_int16 (Fields.Typed.head (Fields.Typed.tail (Fields.Typed.tail (Fields.Typed.tail (Fields.Typed.tail h)))) hv)) <|
    rfl

/-- `OffsetFetchResponseTopic9` as a value of the protocol. -/
def OffsetFetchResponseTopic9.val (t : OffsetFetchResponseTopic9) : Val :=
  .struct [("Name", .str (some t.Name)),
    ("Partitions", ofStructs OffsetFetchResponsePartition9.val t.Partitions)]

theorem OffsetFetchResponseTopic9.conforms {v : Int16} (hv : 0 ≤ v) (t : OffsetFetchResponseTopic9) :
    Protocol.OffsetFetchResponseTopic.wire false v (OffsetFetchResponseTopic9.val t) = OffsetFetchResponseTopic9.wire v t :=
  Writes.eq <|
    Writes.all hv (Protocol.wire_string v t.Name) <|
    Writes.all hv (Protocol.wire_structs v (OffsetFetchResponsePartition9.conforms hv) t.Partitions) <|
    Writes.done

/-- There is nothing that may not be nil. -/
def OffsetFetchResponseTopic9.Full (_v : Int16) (_t : OffsetFetchResponseTopic9) : Prop := True

theorem OffsetFetchResponseTopic9.valid {v : Int16} (hv : 0 ≤ v) (t : OffsetFetchResponseTopic9) (h : t.Fits v) (_hf : t.Full v) :
    Protocol.OffsetFetchResponseTopic.Valid true v (OffsetFetchResponseTopic9.val t) :=
  Valids.all (valid_string (h.Name)) <|
    Valids.all (valid_structs (fun y h hf => OffsetFetchResponsePartition9.valid hv y h hf) (h.Partitions) (fun _ _ => trivial)) <|
    trivial

/-- What `OffsetFetchResponseTopic9` holds after reading the value `x` into `t0`. -/
def OffsetFetchResponseTopic9.of (v : Int16) (x : Val) (t0 : OffsetFetchResponseTopic9) : OffsetFetchResponseTopic9 :=
  { Name := (x.get "Name").toStr,
    Partitions := (x.get "Partitions").toSliceOr (fun y => OffsetFetchResponsePartition9.of v y {}) t0.Partitions }

theorem OffsetFetchResponseTopic9.decodes {v : Int16} (hv : 0 ≤ v) (x : Val) (h : Protocol.OffsetFetchResponseTopic.Valid false v x) (t0 : OffsetFetchResponseTopic9) :
    Reads (OffsetFetchResponseTopic9.decode v t0) (Protocol.OffsetFetchResponseTopic.wire false v x) (OffsetFetchResponseTopic9.of v x t0) :=
  Reads.congr (((Step.field (set := fun (t : OffsetFetchResponseTopic9) x => { t with Name := x }) (read_string (Fields.Valid.head (h) hv)))
      |>.andThen (Step.readStructs (get := fun (t : OffsetFetchResponseTopic9) => t.Partitions) (set := fun (t : OffsetFetchResponseTopic9) x => { t with Partitions := x }) (fun y hy => OffsetFetchResponsePartition9.decodes hv y hy {}) (Fields.Valid.head (Fields.Valid.tail h) hv)) : Step _ _ _) t0)
    (Writes.eq (fs := Protocol.OffsetFetchResponseTopic) (v := v) (x := x) <| Writes.all hv rfl <| Writes.all hv rfl <| Writes.done).symm rfl

theorem OffsetFetchResponseTopic9.parses {v : Int16} (hv : 0 ≤ v) (t0 : OffsetFetchResponseTopic9) :
    Parses (OffsetFetchResponseTopic9.decode v t0) ((Ty.struct Protocol.OffsetFetchResponseTopic).parse v) (fun x => OffsetFetchResponseTopic9.of v x t0) :=
  FParses.parses (fs := Protocol.OffsetFetchResponseTopic)
    (FParses.field hv (set := fun (t : OffsetFetchResponseTopic9) x => { t with Name := x }) par_string <|
    FParses.structs hv (get := fun (t : OffsetFetchResponseTopic9) => t.Partitions) (set := fun (t : OffsetFetchResponseTopic9) x => { t with Partitions := x }) (OffsetFetchResponsePartition9.parses hv {}) <|
    FParses.done)
    (by simp only [OffsetFetchResponseTopic9.decode, Dec.andThen_nop]) (Fields.distinct_nodup _ (by decide +kernel)) (fun _ _ => rfl) t0

theorem OffsetFetchResponseTopic9.shown {v : Int16} (hv : 0 ≤ v) (x : Val) (h : Protocol.OffsetFetchResponseTopic.Typed v x) :
    Protocol.OffsetFetchResponseTopic.shows v x (OffsetFetchResponseTopic9.val (OffsetFetchResponseTopic9.of v x {})) = true :=
  Shows.all hv (show_string (Fields.Typed.head (h) hv)) <|
    Shows.all hv (show_structs (f := OffsetFetchResponsePartition9.val) (g := fun y => OffsetFetchResponsePartition9.of v y {}) (fun y hy => OffsetFetchResponsePartition9.shown hv y hy) (Fields.Typed.head (Fields.Typed.tail h) hv)) <|
    rfl

/-- `OffsetFetchResponse` as a value of the protocol. -/
def OffsetFetchResponse.val (t : OffsetFetchResponse) : Val :=
  .struct [("ThrottleTimeMs", .int32 t.ThrottleTimeMs),
    ("Topics", ofStructs OffsetFetchResponseTopic9.val t.Topics),
    ("ErrorCode", .int16 t.ErrorCode)]

theorem OffsetFetchResponse.conforms {v : Int16} (hv : 0 ≤ v) (t : OffsetFetchResponse) :
    Protocol.OffsetFetchResponse.wire false v (OffsetFetchResponse.val t) = OffsetFetchResponse.wire v t :=
  Writes.eq <|
    Writes.since (Protocol.wire_int32 v t.ThrottleTimeMs) <|
    Writes.all hv (Protocol.wire_structs v (OffsetFetchResponseTopic9.conforms hv) t.Topics) <|
    Writes.since (Protocol.wire_int16 v t.ErrorCode) <|
    Writes.done

/-- There is nothing that may not be nil. -/
def OffsetFetchResponse.Full (_v : Int16) (_t : OffsetFetchResponse) : Prop := True

theorem OffsetFetchResponse.valid {v : Int16} (hv : 0 ≤ v) (t : OffsetFetchResponse) (h : t.Fits v) (_hf : t.Full v) :
    Protocol.OffsetFetchResponse.Valid true v (OffsetFetchResponse.val t) :=
  Valids.since (fun _ => trivial) <|
    Valids.all (valid_structs (fun y h hf => OffsetFetchResponseTopic9.valid hv y h hf) (h.Topics) (fun _ _ => trivial)) <|
    Valids.since (fun _ => trivial) <|
    trivial

/-- What `OffsetFetchResponse` holds after reading the value `x` into `t0`. -/
def OffsetFetchResponse.of (v : Int16) (x : Val) (t0 : OffsetFetchResponse) : OffsetFetchResponse :=
  { ThrottleTimeMs := if v ≥ 3 then (x.get "ThrottleTimeMs").toInt32 else t0.ThrottleTimeMs,
    Topics := (x.get "Topics").toSliceOr (fun y => OffsetFetchResponseTopic9.of v y {}) t0.Topics,
    ErrorCode := if v ≥ 2 then (x.get "ErrorCode").toInt16 else t0.ErrorCode }

theorem OffsetFetchResponse.decodes {v : Int16} (hv : 0 ≤ v) (x : Val) (h : Protocol.OffsetFetchResponse.Valid false v x) (t0 : OffsetFetchResponse) :
    Reads (OffsetFetchResponse.decode v t0) (Protocol.OffsetFetchResponse.wire false v x) (OffsetFetchResponse.of v x t0) :=
  Reads.congr (((Step.optField (c := v ≥ 3) (set := fun (t : OffsetFetchResponse) x => { t with ThrottleTimeMs := x }) (·.ThrottleTimeMs) (fun _ => rfl) fun hc => read_int32 (Fields.Valid.head (h) hc))
      |>.andThen (Step.readStructs (get := fun (t : OffsetFetchResponse) => t.Topics) (set := fun (t : OffsetFetchResponse) x => { t with Topics := x }) (fun y hy => OffsetFetchResponseTopic9.decodes hv y hy {}) (Fields.Valid.head (Fields.Valid.tail h) hv))
      |>.andThen (Step.optField (c := v ≥ 2) (set := fun (t : OffsetFetchResponse) x => { t with ErrorCode := x }) (·.ErrorCode) (fun _ => rfl) fun hc => read_int16 (Fields.Valid.head (Fields.Valid.tail (Fields.Valid.tail h)) hc)) : Step _ _ _) t0)
    (Writes.eq (fs := Protocol.OffsetFetchResponse) (v := v) (x := x) <| Writes.since rfl <| Writes.all hv rfl <| Writes.since rfl <| Writes.done).symm rfl

theorem OffsetFetchResponse.parses {v : Int16} (hv : 0 ≤ v) (t0 : OffsetFetchResponse) :
    Parses (OffsetFetchResponse.decode v t0) ((Ty.struct Protocol.OffsetFetchResponse).parse v) (fun x => OffsetFetchResponse.of v x t0) :=
  FParses.parses (fs := Protocol.OffsetFetchResponse)
    (FParses.optField (c := v ≥ 3) Iff.rfl (set := fun (t : OffsetFetchResponse) x => { t with ThrottleTimeMs := x }) (·.ThrottleTimeMs) (fun _ => rfl) par_int32 <|
    FParses.structs hv (get := fun (t : OffsetFetchResponse) => t.Topics) (set := fun (t : OffsetFetchResponse) x => { t with Topics := x }) (OffsetFetchResponseTopic9.parses hv {}) <|
    FParses.optField (c := v ≥ 2) Iff.rfl (set := fun (t : OffsetFetchResponse) x => { t with ErrorCode := x }) (·.ErrorCode) (fun _ => rfl) par_int16 <|
    FParses.done)
    (by simp only [OffsetFetchResponse.decode, Dec.andThen_assoc, Dec.andThen_nop]) (Fields.distinct_nodup _ (by decide +kernel)) (fun _ _ => rfl) t0

theorem OffsetFetchResponse.shown {v : Int16} (hv : 0 ≤ v) (x : Val) (h : Protocol.OffsetFetchResponse.Typed v x) :
    Protocol.OffsetFetchResponse.shows v x (OffsetFetchResponse.val (OffsetFetchResponse.of v x {})) = true :=
  Shows.since (.int32) rfl (fun hc => show_int32 (Fields.Typed.head (h) hc)) rfl <|
    Shows.all hv (show_structs (f := OffsetFetchResponseTopic9.val) (g := fun y => OffsetFetchResponseTopic9.of v y {}) (fun y hy => OffsetFetchResponseTopic9.shown hv y hy) (Fields.Typed.head (Fields.Typed.tail h) hv)) <|
    Shows.since (.int16) rfl (fun hc => show_int16 (Fields.Typed.head (Fields.Typed.tail (Fields.Typed.tail h)) hc)) rfl <|
    rfl

end Kafka.Msg
