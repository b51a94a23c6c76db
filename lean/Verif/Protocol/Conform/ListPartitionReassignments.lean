import Verif.Protocol.ParseLemmas
import Verif.Gen.Spec.ListPartitionReassignments
/-!
Generated by tools/gen_protocol.py: the ListPartitionReassignments messages are written and read as the protocol says.
-/
namespace Kafka.Msg

open Protocol

/-- `ListPartitionReassignmentsTopics46` as a value of the protocol. -/
def ListPartitionReassignmentsTopics46.val (t : ListPartitionReassignmentsTopics46) : Val :=
  .struct [("Name", .str (some t.Name)),
    ("PartitionIndexes", ofScalars .int32 t.PartitionIndexes)]

theorem ListPartitionReassignmentsTopics46.conforms {v : Int16} (hv : 0 ≤ v) (t : ListPartitionReassignmentsTopics46) :
    Protocol.ListPartitionReassignmentsTopics.wire false v (ListPartitionReassignmentsTopics46.val t) = ListPartitionReassignmentsTopics46.wire v t :=
  Writes.eq <|
    Writes.all hv (Protocol.wire_string v t.Name) <|
    Writes.all hv (Protocol.wire_int32Array v t.PartitionIndexes) <|
    Writes.done

/-- No slice of scalars is nil where the protocol has no null. -/
structure ListPartitionReassignmentsTopics46.Full (v : Int16) (t : ListPartitionReassignmentsTopics46) : Prop where
  PartitionIndexes : t.PartitionIndexes.NotNil

theorem ListPartitionReassignmentsTopics46.valid {v : Int16} (_hv : 0 ≤ v) (t : ListPartitionReassignmentsTopics46) (h : t.Fits v) (hf : t.Full v) :
    Protocol.ListPartitionReassignmentsTopics.Valid true v (ListPartitionReassignmentsTopics46.val t) :=
  Valids.all (valid_string (h.Name)) <|
    Valids.all (valid_int32Array (h.PartitionIndexes) (.inr (hf.PartitionIndexes))) <|
    trivial

/-- `ListPartitionReassignmentsRequest` as a value of the protocol. -/
def ListPartitionReassignmentsRequest.val (t : ListPartitionReassignmentsRequest) : Val :=
  .struct [("TimeoutMs", .int32 t.TimeoutMs),
    ("Topics", ofStructs ListPartitionReassignmentsTopics46.val t.Topics)]

theorem ListPartitionReassignmentsRequest.conforms {v : Int16} (hv : 0 ≤ v) (t : ListPartitionReassignmentsRequest) :
    Protocol.ListPartitionReassignmentsRequest.wire false v (ListPartitionReassignmentsRequest.val t) = ListPartitionReassignmentsRequest.wire v t :=
  Writes.eq <|
    Writes.all hv (Protocol.wire_int32 v t.TimeoutMs) <|
    Writes.all hv (Protocol.wire_structs v (ListPartitionReassignmentsTopics46.conforms hv) t.Topics) <|
    Writes.done

/-- No slice of scalars is nil where the protocol has no null. -/
structure ListPartitionReassignmentsRequest.Full (v : Int16) (t : ListPartitionReassignmentsRequest) : Prop where
  Topics : FullAll (ListPartitionReassignmentsTopics46.Full v) t.Topics

theorem ListPartitionReassignmentsRequest.valid {v : Int16} (hv : 0 ≤ v) (t : ListPartitionReassignmentsRequest) (h : t.Fits v) (hf : t.Full v) :
    Protocol.ListPartitionReassignmentsRequest.Valid true v (ListPartitionReassignmentsRequest.val t) :=
  Valids.all trivial <|
    Valids.all (valid_structs (fun y h hf => ListPartitionReassignmentsTopics46.valid hv y h hf) (h.Topics) (hf.Topics)) <|
    trivial

/-- `OngoingPartitionReassignment46` as a value of the protocol. -/
def OngoingPartitionReassignment46.val (t : OngoingPartitionReassignment46) : Val :=
  .struct [("PartitionIndex", .int32 t.PartitionIndex),
    ("Replicas", ofScalars .int32 t.Replicas),
    ("AddingReplicas", ofScalars .int32 t.AddingReplicas),
    ("RemovingReplicas", ofScalars .int32 t.RemovingReplicas)]

theorem OngoingPartitionReassignment46.conforms {v : Int16} (hv : 0 ≤ v) (t : OngoingPartitionReassignment46) :
    Protocol.OngoingPartitionReassignment.wire false v (OngoingPartitionReassignment46.val t) = OngoingPartitionReassignment46.wire v t :=
  Writes.eq <|
    Writes.all hv (Protocol.wire_int32 v t.PartitionIndex) <|
    Writes.all hv (Protocol.wire_int32Array v t.Replicas) <|
    Writes.all hv (Protocol.wire_int32Array v t.AddingReplicas) <|
    Writes.all hv (Protocol.wire_int32Array v t.RemovingReplicas) <|
    Writes.done

/-- No slice of scalars is nil where the protocol has no null. -/
structure OngoingPartitionReassignment46.Full (v : Int16) (t : OngoingPartitionReassignment46) : Prop where
  Replicas : t.Replicas.NotNil
  AddingReplicas : t.AddingReplicas.NotNil
  RemovingReplicas : t.RemovingReplicas.NotNil

theorem OngoingPartitionReassignment46.valid {v : Int16} (_hv : 0 ≤ v) (t : OngoingPartitionReassignment46) (h : t.Fits v) (hf : t.Full v) :
    Protocol.OngoingPartitionReassignment.Valid true v (OngoingPartitionReassignment46.val t) :=
  Valids.all trivial <|
    Valids.all (valid_int32Array (h.Replicas) (.inr (hf.Replicas))) <|
    Valids.all (valid_int32Array (h.AddingReplicas) (.inr (hf.AddingReplicas))) <|
    Valids.all (valid_int32Array (h.RemovingReplicas) (.inr (hf.RemovingReplicas))) <|
    trivial

/-- What `OngoingPartitionReassignment46` holds after reading the value `x` into `t0`. -/
def OngoingPartitionReassignment46.of (_v : Int16) (x : Val) (_t0 : OngoingPartitionReassignment46) : OngoingPartitionReassignment46 :=
  { PartitionIndex := (x.get "PartitionIndex").toInt32,
    Replicas := (x.get "Replicas").toSlice Val.toInt32,
    AddingReplicas := (x.get "AddingReplicas").toSlice Val.toInt32,
    RemovingReplicas := (x.get "RemovingReplicas").toSlice Val.toInt32 }

theorem OngoingPartitionReassignment46.decodes {v : Int16} (hv : 0 ≤ v) (x : Val) (h : Protocol.OngoingPartitionReassignment.Valid false v x) (t0 : OngoingPartitionReassignment46) :
    Reads (OngoingPartitionReassignment46.decode v t0) (Protocol.OngoingPartitionReassignment.wire false v x) (OngoingPartitionReassignment46.of v x t0) :=
  Reads.congr (((Step.field (set := fun (t : OngoingPartitionReassignment46) x => { t with PartitionIndex := x }) (read_int32 (Fields.Valid.head (h) hv)))
      |>.andThen (Step.field (set := fun (t : OngoingPartitionReassignment46) x => { t with Replicas := x }) (read_int32Array (Fields.Valid.head (Fields.Valid.tail h) hv)))
      |>.andThen (Step.field (set := fun (t : OngoingPartitionReassignment46) x => { t with AddingReplicas := x }) (read_int32Array (Fields.Valid.head (Fields.Valid.tail (Fields.Valid.tail h)) hv)))
      |>.andThen (Step.field (set := fun (t : OngoingPartitionReassignment46) x => { t with RemovingReplicas := x }) (read_int32Array (Fields.Valid.head (Fields.Valid.tail (Fields.Valid.tail (Fields.Valid.tail h))) hv))) : Step _ _ _) t0)
    (Writes.eq (fs := Protocol.OngoingPartitionReassignment) (v := v) (x := x) <| Writes.all hv rfl <| Writes.all hv rfl <| Writes.all hv rfl <| Writes.all hv rfl <| Writes.done).symm rfl

theorem OngoingPartitionReassignment46.parses {v : Int16} (hv : 0 ≤ v) (t0 : OngoingPartitionReassignment46) :
    Parses (OngoingPartitionReassignment46.decode v t0) ((Ty.struct Protocol.OngoingPartitionReassignment).parse v) (fun x => OngoingPartitionReassignment46.of v x t0) :=
  FParses.parses (fs := Protocol.OngoingPartitionReassignment)
    (FParses.field hv (set := fun (t : OngoingPartitionReassignment46) x => { t with PartitionIndex := x }) par_int32 <|
    FParses.field hv (set := fun (t : OngoingPartitionReassignment46) x => { t with Replicas := x }) par_int32Array <|
    FParses.field hv (set := fun (t : OngoingPartitionReassignment46) x => { t with AddingReplicas := x }) par_int32Array <|
    FParses.field hv (set := fun (t : OngoingPartitionReassignment46) x => { t with RemovingReplicas := x }) par_int32Array <|
    FParses.done)
    (by simp only [OngoingPartitionReassignment46.decode, Dec.andThen_assoc, Dec.andThen_nop]) (Fields.distinct_nodup _ (by decide +kernel)) (fun _ _ => rfl) t0

theorem OngoingPartitionReassignment46.shown {v : Int16} (hv : 0 ≤ v) (x : Val) (h : Protocol.OngoingPartitionReassignment.Typed v x) :
    Protocol.OngoingPartitionReassignment.shows v x (OngoingPartitionReassignment46.val (OngoingPartitionReassignment46.of v x {})) = true :=
  Shows.all hv (show_int32 (Fields.Typed.head (h) hv)) <|
    Shows.all hv (show_int32Array (Fields.Typed.head (Fields.Typed.tail h) hv)) <|
    Shows.all hv (show_int32Array (Fields.Typed.head (Fields.Typed.tail (Fields.Typed.tail h)) hv)) <|
    Shows.all hv (show_int32Array (Fields.Typed.head (Fields.Typed.tail (Fields.Typed.tail (Fields.Typed.tail h))) hv)) <|
    rfl

/-- `OngoingTopicReassignment46` as a value of the protocol. -/
def OngoingTopicReassignment46.val (t : OngoingTopicReassignment46) : Val :=
  .struct [("Name", .str (some t.Name)),
    ("Partitions", ofStructs OngoingPartitionReassignment46.val t.Partitions)]

theorem OngoingTopicReassignment46.conforms {v : Int16} (hv : 0 ≤ v) (t : OngoingTopicReassignment46) :
    Protocol.OngoingTopicReassignment.wire false v (OngoingTopicReassignment46.val t) = OngoingTopicReassignment46.wire v t :=
  Writes.eq <|
    Writes.all hv (Protocol.wire_string v t.Name) <|
    Writes.all hv (Protocol.wire_structs v (OngoingPartitionReassignment46.conforms hv) t.Partitions) <|
    Writes.done

/-- No slice of scalars is nil where the protocol has no null. -/
structure OngoingTopicReassignment46.Full (v : Int16) (t : OngoingTopicReassignment46) : Prop where
  Partitions : FullAll (OngoingPartitionReassignment46.Full v) t.Partitions

theorem OngoingTopicReassignment46.valid {v : Int16} (hv : 0 ≤ v) (t : OngoingTopicReassignment46) (h : t.Fits v) (hf : t.Full v) :
    Protocol.OngoingTopicReassignment.Valid true v (OngoingTopicReassignment46.val t) :=
  Valids.all (valid_string (h.Name)) <|
    Valids.all (valid_structs (fun y h hf => OngoingPartitionReassignment46.valid hv y h hf) (h.Partitions) (hf.Partitions)) <|
    trivial

/-- What `OngoingTopicReassignment46` holds after reading the value `x` into `t0`. -/
def OngoingTopicReassignment46.of (v : Int16) (x : Val) (t0 : OngoingTopicReassignment46) : OngoingTopicReassignment46 :=
  { Name := (x.get "Name").toStr,
    Partitions := (x.get "Partitions").toSliceOr (fun y => OngoingPartitionReassignment46.of v y {}) t0.Partitions }

theorem OngoingTopicReassignment46.decodes {v : Int16} (hv : 0 ≤ v) (x : Val) (h : Protocol.OngoingTopicReassignment.Valid false v x) (t0 : OngoingTopicReassignment46) :
    Reads (OngoingTopicReassignment46.decode v t0) (Protocol.OngoingTopicReassignment.wire false v x) (OngoingTopicReassignment46.of v x t0) :=
  Reads.congr (((Step.field (set := fun (t : OngoingTopicReassignment46) x => { t with Name := x }) (read_string (Fields.Valid.head (h) hv)))
      |>.andThen (Step.readStructs (get := fun (t : OngoingTopicReassignment46) => t.Partitions) (set := fun (t : OngoingTopicReassignment46) x => { t with Partitions := x }) (fun y hy => OngoingPartitionReassignment46.decodes hv y hy {}) (Fields.Valid.head (Fields.Valid.tail h) hv)) : Step _ _ _) t0)
    (Writes.eq (fs := Protocol.OngoingTopicReassignment) (v := v) (x := x) <| Writes.all hv rfl <| Writes.all hv rfl <| Writes.done).symm rfl

theorem OngoingTopicReassignment46.parses {v : Int16} (hv : 0 ≤ v) (t0 : OngoingTopicReassignment46) :
    Parses (OngoingTopicReassignment46.decode v t0) ((Ty.struct Protocol.OngoingTopicReassignment).parse v) (fun x => OngoingTopicReassignment46.of v x t0) :=
  FParses.parses (fs := Protocol.OngoingTopicReassignment)
    (FParses.field hv (set := fun (t : OngoingTopicReassignment46) x => { t with Name := x }) par_string <|
    FParses.structs hv (get := fun (t : OngoingTopicReassignment46) => t.Partitions) (set := fun (t : OngoingTopicReassignment46) x => { t with Partitions := x }) (OngoingPartitionReassignment46.parses hv {}) <|
    FParses.done)
    (by simp only [OngoingTopicReassignment46.decode, Dec.andThen_nop]) (Fields.distinct_nodup _ (by decide +kernel)) (fun _ _ => rfl) t0

theorem OngoingTopicReassignment46.shown {v : Int16} (hv : 0 ≤ v) (x : Val) (h : Protocol.OngoingTopicReassignment.Typed v x) :
    Protocol.OngoingTopicReassignment.shows v x (OngoingTopicReassignment46.val (OngoingTopicReassignment46.of v x {})) = true :=
  Shows.all hv (show_string (Fields.Typed.head (h) hv)) <|
    Shows.all hv (show_structs (f := OngoingPartitionReassignment46.val) (g := fun y => OngoingPartitionReassignment46.of v y {}) (fun y hy => OngoingPartitionReassignment46.shown hv y hy) (Fields.Typed.head (Fields.Typed.tail h) hv)) <|
    rfl

/-- `ListPartitionReassignmentsResponse` as a value of the protocol. -/
def ListPartitionReassignmentsResponse.val (t : ListPartitionReassignmentsResponse) : Val :=
  .struct [("ThrottleTimeMs", .int32 t.ThrottleTimeMs),
    ("ErrorCode", .int16 t.ErrorCode),
    ("ErrorMessage", .str (some t.ErrorMessage)),
    ("Topics", ofStructs OngoingTopicReassignment46.val t.Topics)]

theorem ListPartitionReassignmentsResponse.conforms {v : Int16} (hv : 0 ≤ v) (t : ListPartitionReassignmentsResponse) :
    Protocol.ListPartitionReassignmentsResponse.wire false v (ListPartitionReassignmentsResponse.val t) = ListPartitionReassignmentsResponse.wire v t :=
  Writes.eq <|
    Writes.all hv (Protocol.wire_int32 v t.ThrottleTimeMs) <|
    Writes.all hv (Protocol.wire_int16 v t.ErrorCode) <|
    Writes.all hv (Protocol.wire_string v t.ErrorMessage) <|
    Writes.all hv (Protocol.wire_structs v (OngoingTopicReassignment46.conforms hv) t.Topics) <|
    Writes.done

/-- No slice of scalars is nil where the protocol has no null. -/
structure ListPartitionReassignmentsResponse.Full (v : Int16) (t : ListPartitionReassignmentsResponse) : Prop where
  Topics : FullAll (OngoingTopicReassignment46.Full v) t.Topics

theorem ListPartitionReassignmentsResponse.valid {v : Int16} (hv : 0 ≤ v) (t : ListPartitionReassignmentsResponse) (h : t.Fits v) (hf : t.Full v) :
    Protocol.ListPartitionReassignmentsResponse.Valid true v (ListPartitionReassignmentsResponse.val t) :=
  Valids.all trivial <|
    Valids.all trivial <|
    Valids.all (valid_string (h.ErrorMessage)) <|
    Valids.all (valid_structs (fun y h hf => OngoingTopicReassignment46.valid hv y h hf) (h.Topics) (hf.Topics)) <|
    trivial

/-- What `ListPartitionReassignmentsResponse` holds after reading the value `x` into `t0`. -/
def ListPartitionReassignmentsResponse.of (v : Int16) (x : Val) (t0 : ListPartitionReassignmentsResponse) : ListPartitionReassignmentsResponse :=
  { ThrottleTimeMs := (x.get "ThrottleTimeMs").toInt32,
    ErrorCode := (x.get "ErrorCode").toInt16,
    ErrorMessage := (x.get "ErrorMessage").toStr,
    Topics := (x.get "Topics").toSliceOr (fun y => OngoingTopicReassignment46.of v y {}) t0.Topics }

theorem ListPartitionReassignmentsResponse.decodes {v : Int16} (hv : 0 ≤ v) (x : Val) (h : Protocol.ListPartitionReassignmentsResponse.Valid false v x) (t0 : ListPartitionReassignmentsResponse) :
    Reads (ListPartitionReassignmentsResponse.decode v t0) (Protocol.ListPartitionReassignmentsResponse.wire false v x) (ListPartitionReassignmentsResponse.of v x t0) :=
  Reads.congr (((Step.field (set := fun (t : ListPartitionReassignmentsResponse) x => { t with ThrottleTimeMs := x }) (read_int32 (Fields.Valid.head (h) hv)))
      |>.andThen (Step.field (set := fun (t : ListPartitionReassignmentsResponse) x => { t with ErrorCode := x }) (read_int16 (Fields.Valid.head (Fields.Valid.tail h) hv)))
      |>.andThen (Step.field (set := fun (t : ListPartitionReassignmentsResponse) x => { t with ErrorMessage := x }) (read_string (Fields.Valid.head (Fields.Valid.tail (Fields.Valid.tail h)) hv)))
      |>.andThen (Step.readStructs (get := fun (t : ListPartitionReassignmentsResponse) => t.Topics) (set := fun (t : ListPartitionReassignmentsResponse) x => { t with Topics := x }) (fun y hy => OngoingTopicReassignment46.decodes hv y hy {}) (Fields.Valid.head (Fields.Valid.tail (Fields.Valid.tail (Fields.Valid.tail h))) hv)) : Step _ _ _) t0)
    (Writes.eq (fs := Protocol.ListPartitionReassignmentsResponse) (v := v) (x := x) <| Writes.all hv rfl <| Writes.all hv rfl <| Writes.all hv rfl <| Writes.all hv rfl <| Writes.done).symm rfl

theorem ListPartitionReassignmentsResponse.parses {v : Int16} (hv : 0 ≤ v) (t0 : ListPartitionReassignmentsResponse) :
    Parses (ListPartitionReassignmentsResponse.decode v t0) ((Ty.struct Protocol.ListPartitionReassignmentsResponse).parse v) (fun x => ListPartitionReassignmentsResponse.of v x t0) :=
  FParses.parses (fs := Protocol.ListPartitionReassignmentsResponse)
    (FParses.field hv (set := fun (t : ListPartitionReassignmentsResponse) x => { t with ThrottleTimeMs := x }) par_int32 <|
    FParses.field hv (set := fun (t : ListPartitionReassignmentsResponse) x => { t with ErrorCode := x }) par_int16 <|
    FParses.field hv (set := fun (t : ListPartitionReassignmentsResponse) x => { t with ErrorMessage := x }) par_string <|
    FParses.structs hv (get := fun (t : ListPartitionReassignmentsResponse) => t.Topics) (set := fun (t : ListPartitionReassignmentsResponse) x => { t with Topics := x }) (OngoingTopicReassignment46.parses hv {}) <|
    FParses.done)
    (by simp only [ListPartitionReassignmentsResponse.decode, Dec.andThen_assoc, Dec.andThen_nop]) (Fields.distinct_nodup _ (by decide +kernel)) (fun _ _ => rfl) t0

theorem ListPartitionReassignmentsResponse.shown {v : Int16} (hv : 0 ≤ v) (x : Val) (h : Protocol.ListPartitionReassignmentsResponse.Typed v x) :
    Protocol.ListPartitionReassignmentsResponse.shows v x (ListPartitionReassignmentsResponse.val (ListPartitionReassignmentsResponse.of v x {})) = true :=
  Shows.all hv (show_int32 (Fields.Typed.head (h) hv)) <|
    Shows.all hv (show_int16 (Fields.Typed.head (Fields.Typed.tail h) hv)) <|
    Shows.all hv (show_string (Fields.Typed.head (Fields.Typed.tail (Fields.Typed.tail h)) hv)) <|
    Shows.all hv (show_structs (f := OngoingTopicReassignment46.val) (g := fun y => OngoingTopicReassignment46.of v y {}) (fun y hy => OngoingTopicReassignment46.shown hv y hy) (Fields.Typed.head (Fields.Typed.tail (Fields.Typed.tail (Fields.Typed.tail h))) hv)) <|
    rfl

end Kafka.Msg
