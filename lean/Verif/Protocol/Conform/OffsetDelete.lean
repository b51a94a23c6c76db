import Verif.Protocol.ParseLemmas
import Verif.Gen.Spec.OffsetDelete
/-!
Generated by tools/gen_protocol.py: the OffsetDelete messages are written and read as the protocol says.
-/
namespace Kafka.Msg

open Protocol

/-- `OffsetDeleteRequestPartition47` as a value of the protocol. -/
def OffsetDeleteRequestPartition47.val (t : OffsetDeleteRequestPartition47) : Val :=
  .struct [("PartitionIndex", .int32 t.PartitionIndex)]

theorem OffsetDeleteRequestPartition47.conforms {v : Int16} (hv : 0 ≤ v) (t : OffsetDeleteRequestPartition47) :
    Protocol.OffsetDeleteRequestPartition.wire false v (OffsetDeleteRequestPartition47.val t) = OffsetDeleteRequestPartition47.wire v t :=
  Writes.eq <|
    Writes.all hv (Protocol.wire_int32 v t.PartitionIndex) <|
    Writes.done

/-- There is nothing that may not be nil. -/
def OffsetDeleteRequestPartition47.Full (_v : Int16) (_t : OffsetDeleteRequestPartition47) : Prop := True

theorem OffsetDeleteRequestPartition47.valid {v : Int16} (_hv : 0 ≤ v) (t : OffsetDeleteRequestPartition47) (_h : t.Fits v) (_hf : t.Full v) :
    Protocol.OffsetDeleteRequestPartition.Valid true v (OffsetDeleteRequestPartition47.val t) :=
  Valids.all trivial <|
    trivial

/-- `OffsetDeleteRequestTopic47` as a value of the protocol. -/
def OffsetDeleteRequestTopic47.val (t : OffsetDeleteRequestTopic47) : Val :=
  .struct [("Name", .str (some t.Name)),
    ("Partitions", ofStructs OffsetDeleteRequestPartition47.val t.Partitions)]

theorem OffsetDeleteRequestTopic47.conforms {v : Int16} (hv : 0 ≤ v) (t : OffsetDeleteRequestTopic47) :
    Protocol.OffsetDeleteRequestTopic.wire false v (OffsetDeleteRequestTopic47.val t) = OffsetDeleteRequestTopic47.wire v t :=
  Writes.eq <|
    Writes.all hv (Protocol.wire_string v t.Name) <|
    Writes.all hv (Protocol.wire_structs v (OffsetDeleteRequestPartition47.conforms hv) t.Partitions) <|
    Writes.done

/-- There is nothing that may not be nil. -/
def OffsetDeleteRequestTopic47.Full (_v : Int16) (_t : OffsetDeleteRequestTopic47) : Prop := True

theorem OffsetDeleteRequestTopic47.valid {v : Int16} (hv : 0 ≤ v) (t : OffsetDeleteRequestTopic47) (h : t.Fits v) (_hf : t.Full v) :
    Protocol.OffsetDeleteRequestTopic.Valid true v (OffsetDeleteRequestTopic47.val t) :=
  Valids.all (valid_string (h.Name)) <|
    Valids.all (valid_structs (fun y h hf => OffsetDeleteRequestPartition47.valid hv y h hf) (h.Partitions) (fun _ _ => trivial)) <|
    trivial

/-- `OffsetDeleteRequest` as a value of the protocol. -/
def OffsetDeleteRequest.val (t : OffsetDeleteRequest) : Val :=
  .struct [("GroupId", .str (some t.GroupId)),
    ("Topics", ofStructs OffsetDeleteRequestTopic47.val t.Topics)]

theorem OffsetDeleteRequest.conforms {v : Int16} (hv : 0 ≤ v) (t : OffsetDeleteRequest) :
    Protocol.OffsetDeleteRequest.wire false v (OffsetDeleteRequest.val t) = OffsetDeleteRequest.wire v t :=
  Writes.eq <|
    Writes.all hv (Protocol.wire_string v t.GroupId) <|
    Writes.all hv (Protocol.wire_structs v (OffsetDeleteRequestTopic47.conforms hv) t.Topics) <|
    Writes.done

/-- There is nothing that may not be nil. -/
def OffsetDeleteRequest.Full (_v : Int16) (_t : OffsetDeleteRequest) : Prop := True

theorem OffsetDeleteRequest.valid {v : Int16} (hv : 0 ≤ v) (t : OffsetDeleteRequest) (h : t.Fits v) (_hf : t.Full v) :
    Protocol.OffsetDeleteRequest.Valid true v (OffsetDeleteRequest.val t) :=
  Valids.all (valid_string (h.GroupId)) <|
    Valids.all (valid_structs (fun y h hf => OffsetDeleteRequestTopic47.valid hv y h hf) (h.Topics) (fun _ _ => trivial)) <|
    trivial

/-- `OffsetDeleteResponsePartition47` as a value of the protocol. -/
def OffsetDeleteResponsePartition47.val (t : OffsetDeleteResponsePartition47) : Val :=
  .struct [("PartitionIndex", .int32 t.PartitionIndex),
    ("ErrorCode", .int16 t.ErrorCode)]

theorem OffsetDeleteResponsePartition47.conforms {v : Int16} (hv : 0 ≤ v) (t : OffsetDeleteResponsePartition47) :
    Protocol.OffsetDeleteResponsePartition.wire false v (OffsetDeleteResponsePartition47.val t) = OffsetDeleteResponsePartition47.wire v t :=
  Writes.eq <|
    Writes.all hv (Protocol.wire_int32 v t.PartitionIndex) <|
    Writes.all hv (Protocol.wire_int16 v t.ErrorCode) <|
    Writes.done

/-- There is nothing that may not be nil. -/
def OffsetDeleteResponsePartition47.Full (_v : Int16) (_t : OffsetDeleteResponsePartition47) : Prop := True

theorem OffsetDeleteResponsePartition47.valid {v : Int16} (_hv : 0 ≤ v) (t : OffsetDeleteResponsePartition47) (_h : t.Fits v) (_hf : t.Full v) :
    Protocol.OffsetDeleteResponsePartition.Valid true v (OffsetDeleteResponsePartition47.val t) :=
  Valids.all trivial <|
    Valids.all trivial <|
    trivial

/-- What `OffsetDeleteResponsePartition47` holds after reading the value `x` into `t0`. -/
def OffsetDeleteResponsePartition47.of (_v : Int16) (x : Val) (_t0 : OffsetDeleteResponsePartition47) : OffsetDeleteResponsePartition47 :=
  { PartitionIndex := (x.get "PartitionIndex").toInt32,
    ErrorCode := (x.get "ErrorCode").toInt16 }

theorem OffsetDeleteResponsePartition47.decodes {v : Int16} (hv : 0 ≤ v) (x : Val) (h : Protocol.OffsetDeleteResponsePartition.Valid false v x) (t0 : OffsetDeleteResponsePartition47) :
    Reads (OffsetDeleteResponsePartition47.decode v t0) (Protocol.OffsetDeleteResponsePartition.wire false v x) (OffsetDeleteResponsePartition47.of v x t0) :=
  Reads.congr (((Step.field (set := fun (t : OffsetDeleteResponsePartition47) x => { t with PartitionIndex := x }) (read_int32 (Fields.Valid.head (h) hv)))
      |>.andThen (Step.field (set := fun (t : OffsetDeleteResponsePartition47) x => { t with ErrorCode := x }) (read_int16 (Fields.Valid.head (Fields.Valid.tail h) hv))) : Step _ _ _) t0)
    (Writes.eq (fs := Protocol.OffsetDeleteResponsePartition) (v := v) (x := x) <| Writes.all hv rfl <| Writes.all hv rfl <| Writes.done).symm rfl

theorem OffsetDeleteResponsePartition47.parses {v : Int16} (hv : 0 ≤ v) (t0 : OffsetDeleteResponsePartition47) :
    Parses (OffsetDeleteResponsePartition47.decode v t0) ((Ty.struct Protocol.OffsetDeleteResponsePartition).parse v) (fun x => OffsetDeleteResponsePartition47.of v x t0) :=
  FParses.parses (fs := Protocol.OffsetDeleteResponsePartition)
    (FParses.field hv (set := fun (t : OffsetDeleteResponsePartition47) x => { t with PartitionIndex := x }) par_int32 <|
    FParses.field hv (set := fun (t : OffsetDeleteResponsePartition47) x => { t with ErrorCode := x }) par_int16 <|
    FParses.done)
    (by simp only [OffsetDeleteResponsePartition47.decode, Dec.andThen_nop]) (Fields.distinct_nodup _ (by decide +kernel)) (fun _ _ => rfl) t0

theorem OffsetDeleteResponsePartition47.shown {v : Int16} (hv : 0 ≤ v) (x : Val) (h : Protocol.OffsetDeleteResponsePartition.Typed v x) :
    Protocol.OffsetDeleteResponsePartition.shows v x (OffsetDeleteResponsePartition47.val (OffsetDeleteResponsePartition47.of v x {})) = true :=
  Shows.all hv (show_int32 (Fields.Typed.head (h) hv)) <|
    Shows.all hv (show_int16 (Fields.Typed.head (Fields.Typed.tail h) hv)) <|
    rfl

/-- `OffsetDeleteResponseTopic47` as a value of the protocol. -/
def OffsetDeleteResponseTopic47.val (t : OffsetDeleteResponseTopic47) : Val :=
  .struct [("Name", .str (some t.Name)),
    ("Partitions", ofStructs OffsetDeleteResponsePartition47.val t.Partitions)]

theorem OffsetDeleteResponseTopic47.conforms {v : Int16} (hv : 0 ≤ v) (t : OffsetDeleteResponseTopic47) :
    Protocol.OffsetDeleteResponseTopic.wire false v (OffsetDeleteResponseTopic47.val t) = OffsetDeleteResponseTopic47.wire v t :=
  Writes.eq <|
    Writes.all hv (Protocol.wire_string v t.Name) <|
    Writes.all hv (Protocol.wire_structs v (OffsetDeleteResponsePartition47.conforms hv) t.Partitions) <|
    Writes.done

/-- There is nothing that may not be nil. -/
def OffsetDeleteResponseTopic47.Full (_v : Int16) (_t : OffsetDeleteResponseTopic47) : Prop := True

theorem OffsetDeleteResponseTopic47.valid {v : Int16} (hv : 0 ≤ v) (t : OffsetDeleteResponseTopic47) (h : t.Fits v) (_hf : t.Full v) :
    Protocol.OffsetDeleteResponseTopic.Valid true v (OffsetDeleteResponseTopic47.val t) :=
  Valids.all (valid_string (h.Name)) <|
    Valids.all (valid_structs (fun y h hf => OffsetDeleteResponsePartition47.valid hv y h hf) (h.Partitions) (fun _ _ => trivial)) <|
    trivial

/-- What `OffsetDeleteResponseTopic47` holds after reading the value `x` into `t0`. -/
def OffsetDeleteResponseTopic47.of (v : Int16) (x : Val) (t0 : OffsetDeleteResponseTopic47) : OffsetDeleteResponseTopic47 :=
  { Name := (x.get "Name").toStr,
    Partitions := (x.get "Partitions").toSliceOr (fun y => OffsetDeleteResponsePartition47.of v y {}) t0.Partitions }

theorem OffsetDeleteResponseTopic47.decodes {v : Int16} (hv : 0 ≤ v) (x : Val) (h : Protocol.OffsetDeleteResponseTopic.Valid false v x) (t0 : OffsetDeleteResponseTopic47) :
    Reads (OffsetDeleteResponseTopic47.decode v t0) (Protocol.OffsetDeleteResponseTopic.wire false v x) (OffsetDeleteResponseTopic47.of v x t0) :=
  Reads.congr (((Step.field (set := fun (t : OffsetDeleteResponseTopic47) x => { t with Name := x }) (read_string (Fields.Valid.head (h) hv)))
      |>.andThen (Step.readStructs (get := fun (t : OffsetDeleteResponseTopic47) => t.Partitions) (set := fun (t : OffsetDeleteResponseTopic47) x => { t with Partitions := x }) (fun y hy => OffsetDeleteResponsePartition47.decodes hv y hy {}) (Fields.Valid.head (Fields.Valid.tail h) hv)) : Step _ _ _) t0)
    (Writes.eq (fs := Protocol.OffsetDeleteResponseTopic) (v := v) (x := x) <| Writes.all hv rfl <| Writes.all hv rfl <| Writes.done).symm rfl

theorem OffsetDeleteResponseTopic47.parses {v : Int16} (hv : 0 ≤ v) (t0 : OffsetDeleteResponseTopic47) :
    Parses (OffsetDeleteResponseTopic47.decode v t0) ((Ty.struct Protocol.OffsetDeleteResponseTopic).parse v) (fun x => OffsetDeleteResponseTopic47.of v x t0) :=
  FParses.parses (fs := Protocol.OffsetDeleteResponseTopic)
    (FParses.field hv (set := fun (t : OffsetDeleteResponseTopic47) x => { t with Name := x }) par_string <|
    FParses.structs hv (get := fun (t : OffsetDeleteResponseTopic47) => t.Partitions) (set := fun (t : OffsetDeleteResponseTopic47) x => { t with Partitions := x }) (OffsetDeleteResponsePartition47.parses hv {}) <|
    FParses.done)
    (by simp only [OffsetDeleteResponseTopic47.decode, Dec.andThen_nop]) (Fields.distinct_nodup _ (by decide +kernel)) (fun _ _ => rfl) t0

theorem OffsetDeleteResponseTopic47.shown {v : Int16} (hv : 0 ≤ v) (x : Val) (h : Protocol.OffsetDeleteResponseTopic.Typed v x) :
    Protocol.OffsetDeleteResponseTopic.shows v x (OffsetDeleteResponseTopic47.val (OffsetDeleteResponseTopic47.of v x {})) = true :=
  Shows.all hv (show_string (Fields.Typed.head (h) hv)) <|
    Shows.all hv (show_structs (f := OffsetDeleteResponsePartition47.val) (g := fun y => OffsetDeleteResponsePartition47.of v y {}) (fun y hy => OffsetDeleteResponsePartition47.shown hv y hy) (Fields.Typed.head (Fields.Typed.tail h) hv)) <|
    rfl

/-- `OffsetDeleteResponse` as a value of the protocol. -/
def OffsetDeleteResponse.val (t : OffsetDeleteResponse) : Val :=
  .struct [("ErrorCode", .int16 t.ErrorCode),
    ("ThrottleTimeMs", .int32 t.ThrottleTimeMs),
    ("Topics", ofStructs OffsetDeleteResponseTopic47.val t.Topics)]

theorem OffsetDeleteResponse.conforms {v : Int16} (hv : 0 ≤ v) (t : OffsetDeleteResponse) :
    Protocol.OffsetDeleteResponse.wire false v (OffsetDeleteResponse.val t) = OffsetDeleteResponse.wire v t :=
  Writes.eq <|
    Writes.all hv (Protocol.wire_int16 v t.ErrorCode) <|
    Writes.all hv (Protocol.wire_int32 v t.ThrottleTimeMs) <|
    Writes.all hv (Protocol.wire_structs v (OffsetDeleteResponseTopic47.conforms hv) t.Topics) <|
    Writes.done

/-- There is nothing that may not be nil. -/
def OffsetDeleteResponse.Full (_v : Int16) (_t : OffsetDeleteResponse) : Prop := True

theorem OffsetDeleteResponse.valid {v : Int16} (hv : 0 ≤ v) (t : OffsetDeleteResponse) (h : t.Fits v) (_hf : t.Full v) :
    Protocol.OffsetDeleteResponse.Valid true v (OffsetDeleteResponse.val t) :=
  Valids.all trivial <|
    Valids.all trivial <|
    Valids.all (valid_structs (fun y h hf => OffsetDeleteResponseTopic47.valid hv y h hf) (h.Topics) (fun _ _ => trivial)) <|
    trivial

/-- What `OffsetDeleteResponse` holds after reading the value `x` into `t0`. -/
def OffsetDeleteResponse.of (v : Int16) (x : Val) (t0 : OffsetDeleteResponse) : OffsetDeleteResponse :=
  { ErrorCode := (x.get "ErrorCode").toInt16,
    ThrottleTimeMs := (x.get "ThrottleTimeMs").toInt32,
    Topics := (x.get "Topics").toSliceOr (fun y => OffsetDeleteResponseTopic47.of v y {}) t0.Topics }

theorem OffsetDeleteResponse.decodes {v : Int16} (hv : 0 ≤ v) (x : Val) (h : Protocol.OffsetDeleteResponse.Valid false v x) (t0 : OffsetDeleteResponse) :
    Reads (OffsetDeleteResponse.decode v t0) (Protocol.OffsetDeleteResponse.wire false v x) (OffsetDeleteResponse.of v x t0) :=
  Reads.congr (((Step.field (set := fun (t : OffsetDeleteResponse) x => { t with ErrorCode := x }) (read_int16 (Fields.Valid.head (h) hv)))
      |>.andThen (Step.field (set := fun (t : OffsetDeleteResponse) x => { t with ThrottleTimeMs := x }) (read_int32 (Fields.Valid.head (Fields.Valid.tail h) hv)))
      |>.andThen (Step.readStructs (get := fun (t : OffsetDeleteResponse) => t.Topics) (set := fun (t : OffsetDeleteResponse) x => { t with Topics := x }) (fun y hy => OffsetDeleteResponseTopic47.decodes hv y hy {}) (Fields.Valid.head (Fields.Valid.tail (Fields.Valid.tail h)) hv)) : Step _ _ _) t0)
    (Writes.eq (fs := Protocol.OffsetDeleteResponse) (v := v) (x := x) <| Writes.all hv rfl <| Writes.all hv rfl <| Writes.all hv rfl <| Writes.done).symm rfl

theorem OffsetDeleteResponse.parses {v : Int16} (hv : 0 ≤ v) (t0 : OffsetDeleteResponse) :
    Parses (OffsetDeleteResponse.decode v t0) ((Ty.struct Protocol.OffsetDeleteResponse).parse v) (fun x => OffsetDeleteResponse.of v x t0) :=
  FParses.parses (fs := Protocol.OffsetDeleteResponse)
    (FParses.field hv (set := fun (t : OffsetDeleteResponse) x => { t with ErrorCode := x }) par_int16 <|
    FParses.field hv (set := fun (t : OffsetDeleteResponse) x => { t with ThrottleTimeMs := x }) par_int32 <|
    FParses.structs hv (get := fun (t : OffsetDeleteResponse) => t.Topics) (set := fun (t : OffsetDeleteResponse) x => { t with Topics := x }) (OffsetDeleteResponseTopic47.parses hv {}) <|
    FParses.done)
    (by simp only [OffsetDeleteResponse.decode, Dec.andThen_assoc, Dec.andThen_nop]) (Fields.distinct_nodup _ (by decide +kernel)) (fun _ _ => rfl) t0

theorem OffsetDeleteResponse.shown {v : Int16} (hv : 0 ≤ v) (x : Val) (h : Protocol.OffsetDeleteResponse.Typed v x) :
    Protocol.OffsetDeleteResponse.shows v x (OffsetDeleteResponse.val (OffsetDeleteResponse.of v x {})) = true :=
  Shows.all hv (show_int16 (Fields.Typed.head (h) hv)) <|
    Shows.all hv (show_int32 (Fields.Typed.head (Fields.Typed.tail h) hv)) <|
    Shows.all hv (show_structs (f := OffsetDeleteResponseTopic47.val) (g := fun y => OffsetDeleteResponseTopic47.of v y {}) (fun y hy => OffsetDeleteResponseTopic47.shown hv y hy) (Fields.Typed.head (Fields.Typed.tail (Fields.Typed.tail h)) hv)) <|
    rfl

end Kafka.Msg
