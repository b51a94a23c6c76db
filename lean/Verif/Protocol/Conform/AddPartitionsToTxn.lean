import Verif.Protocol.ParseLemmas
import Verif.Gen.Spec.AddPartitionsToTxn
/-!
Generated by tools/gen_protocol.py: the AddPartitionsToTxn messages are written and read as the protocol says.
-/
namespace Kafka.Msg

open Protocol

/-- `AddPartitionsToTxnTopic24` as a value of the protocol. -/
def AddPartitionsToTxnTopic24.val (t : AddPartitionsToTxnTopic24) : Val :=
  .struct [("Name", .str (some t.Name)),
    ("Partitions", ofScalars .int32 t.Partitions)]

theorem AddPartitionsToTxnTopic24.conforms {v : Int16} (hv : 0 ≤ v) (t : AddPartitionsToTxnTopic24) :
    Protocol.AddPartitionsToTxnTopic.wire false v (AddPartitionsToTxnTopic24.val t) = AddPartitionsToTxnTopic24.wire v t :=
  Writes.eq <|
    Writes.all hv (Protocol.wire_string v t.Name) <|
    Writes.all hv (Protocol.wire_int32Array v t.Partitions) <|
    Writes.done

/-- No slice of scalars is nil where the protocol has no null. -/
structure AddPartitionsToTxnTopic24.Full (v : Int16) (t : AddPartitionsToTxnTopic24) : Prop where
  Partitions : t.Partitions.NotNil

theorem AddPartitionsToTxnTopic24.valid {v : Int16} (_hv : 0 ≤ v) (t : AddPartitionsToTxnTopic24) (h : t.Fits v) (hf : t.Full v) :
    Protocol.AddPartitionsToTxnTopic.Valid true v (AddPartitionsToTxnTopic24.val t) :=
  Valids.all (valid_string (h.Name)) <|
    Valids.all (valid_int32Array (h.Partitions) (.inr (hf.Partitions))) <|
    trivial

/-- `AddPartitionsToTxnRequest` as a value of the protocol. -/
def AddPartitionsToTxnRequest.val (t : AddPartitionsToTxnRequest) : Val :=
  .struct [("TransactionalId", .str (some t.TransactionalId)),
    ("ProducerId", .int64 t.ProducerId),
    ("ProducerEpoch", .int16 t.ProducerEpoch),
    ("Topics", ofStructs AddPartitionsToTxnTopic24.val t.Topics)]

theorem AddPartitionsToTxnRequest.conforms {v : Int16} (hv : 0 ≤ v) (t : AddPartitionsToTxnRequest) :
    Protocol.AddPartitionsToTxnRequest.wire false v (AddPartitionsToTxnRequest.val t) = AddPartitionsToTxnRequest.wire v t :=
  Writes.eq <|
    Writes.all hv (Protocol.wire_string v t.TransactionalId) <|
    Writes.all hv (Protocol.wire_int64 v t.ProducerId) <|
    Writes.all hv (Protocol.wire_int16 v t.ProducerEpoch) <|
    Writes.all hv (Protocol.wire_structs v (AddPartitionsToTxnTopic24.conforms hv) t.Topics) <|
    Writes.done

/-- No slice of scalars is nil where the protocol has no null. -/
structure AddPartitionsToTxnRequest.Full (v : Int16) (t : AddPartitionsToTxnRequest) : Prop where
  Topics : FullAll (AddPartitionsToTxnTopic24.Full v) t.Topics

theorem AddPartitionsToTxnRequest.valid {v : Int16} (hv : 0 ≤ v) (t : AddPartitionsToTxnRequest) (h : t.Fits v) (hf : t.Full v) :
    Protocol.AddPartitionsToTxnRequest.Valid true v (AddPartitionsToTxnRequest.val t) :=
  Valids.all (valid_string (h.TransactionalId)) <|
    Valids.all trivial <|
    Valids.all trivial <|
    Valids.all (valid_structs (fun y h hf => AddPartitionsToTxnTopic24.valid hv y h hf) (h.Topics) (hf.Topics)) <|
    trivial

/-- `AddPartitionsToTxnPartitionResult24` as a value of the protocol. -/
def AddPartitionsToTxnPartitionResult24.val (t : AddPartitionsToTxnPartitionResult24) : Val :=
  .struct [("PartitionIndex", .int32 t.PartitionIndex),
    ("ErrorCode", .int16 t.ErrorCode)]

theorem AddPartitionsToTxnPartitionResult24.conforms {v : Int16} (hv : 0 ≤ v) (t : AddPartitionsToTxnPartitionResult24) :
    Protocol.AddPartitionsToTxnPartitionResult.wire false v (AddPartitionsToTxnPartitionResult24.val t) = AddPartitionsToTxnPartitionResult24.wire v t :=
  Writes.eq <|
    Writes.all hv (Protocol.wire_int32 v t.PartitionIndex) <|
    Writes.all hv (Protocol.wire_int16 v t.ErrorCode) <|
    Writes.done

/-- There is nothing that may not be nil. -/
def AddPartitionsToTxnPartitionResult24.Full (_v : Int16) (_t : AddPartitionsToTxnPartitionResult24) : Prop := True

theorem AddPartitionsToTxnPartitionResult24.valid {v : Int16} (_hv : 0 ≤ v) (t : AddPartitionsToTxnPartitionResult24) (_h : t.Fits v) (_hf : t.Full v) :
    Protocol.AddPartitionsToTxnPartitionResult.Valid true v (AddPartitionsToTxnPartitionResult24.val t) :=
  Valids.all trivial <|
    Valids.all trivial <|
    trivial

/-- What `AddPartitionsToTxnPartitionResult24` holds after reading the value `x` into `t0`. -/
def AddPartitionsToTxnPartitionResult24.of (_v : Int16) (x : Val) (_t0 : AddPartitionsToTxnPartitionResult24) : AddPartitionsToTxnPartitionResult24 :=
  { PartitionIndex := (x.get "PartitionIndex").toInt32,
    ErrorCode := (x.get "ErrorCode").toInt16 }

theorem AddPartitionsToTxnPartitionResult24.decodes {v : Int16} (hv : 0 ≤ v) (x : Val) (h : Protocol.AddPartitionsToTxnPartitionResult.Valid false v x) (t0 : AddPartitionsToTxnPartitionResult24) :
    Reads (AddPartitionsToTxnPartitionResult24.decode v t0) (Protocol.AddPartitionsToTxnPartitionResult.wire false v x) (AddPartitionsToTxnPartitionResult24.of v x t0) :=
  Reads.congr (((Step.field (set := fun (t : AddPartitionsToTxnPartitionResult24) x => { t with PartitionIndex := x }) (read_int32 (Fields.Valid.head (h) hv)))
      |>.andThen (Step.field (set := fun (t : AddPartitionsToTxnPartitionResult24) x => { t with ErrorCode := x }) (read_int16 (Fields.Valid.head (Fields.Valid.tail h) hv))) : Step _ _ _) t0)
    (Writes.eq (fs := Protocol.AddPartitionsToTxnPartitionResult) (v := v) (x := x) <| Writes.all hv rfl <| Writes.all hv rfl <| Writes.done).symm rfl

theorem AddPartitionsToTxnPartitionResult24.parses {v : Int16} (hv : 0 ≤ v) (t0 : AddPartitionsToTxnPartitionResult24) :
    Parses (AddPartitionsToTxnPartitionResult24.decode v t0) ((Ty.struct Protocol.AddPartitionsToTxnPartitionResult).parse v) (fun x => AddPartitionsToTxnPartitionResult24.of v x t0) :=
  FParses.parses (fs := Protocol.AddPartitionsToTxnPartitionResult)
    (FParses.field hv (set := fun (t : AddPartitionsToTxnPartitionResult24) x => { t with PartitionIndex := x }) par_int32 <|
    FParses.field hv (set := fun (t : AddPartitionsToTxnPartitionResult24) x => { t with ErrorCode := x }) par_int16 <|
    FParses.done)
    (by simp only [AddPartitionsToTxnPartitionResult24.decode, Dec.andThen_nop]) (Fields.distinct_nodup _ (by decide +kernel)) (fun _ _ => rfl) t0

theorem AddPartitionsToTxnPartitionResult24.shown {v : Int16} (hv : 0 ≤ v) (x : Val) (h : Protocol.AddPartitionsToTxnPartitionResult.Typed v x) :
    Protocol.AddPartitionsToTxnPartitionResult.shows v x (AddPartitionsToTxnPartitionResult24.val (AddPartitionsToTxnPartitionResult24.of v x {})) = true :=
  Shows.all hv (show_int32 (Fields.Typed.head (h) hv)) <|
    Shows.all hv (show_int16 (Fields.Typed.head (Fields.Typed.tail h) hv)) <|
    rfl

/-- `AddPartitionsToTxnTopicResult24` as a value of the protocol. -/
def AddPartitionsToTxnTopicResult24.val (t : AddPartitionsToTxnTopicResult24) : Val :=
  .struct [("Name", .str (some t.Name)),
    ("Results", ofStructs AddPartitionsToTxnPartitionResult24.val t.Results)]

theorem AddPartitionsToTxnTopicResult24.conforms {v : Int16} (hv : 0 ≤ v) (t : AddPartitionsToTxnTopicResult24) :
    Protocol.AddPartitionsToTxnTopicResult.wire false v (AddPartitionsToTxnTopicResult24.val t) = AddPartitionsToTxnTopicResult24.wire v t :=
  Writes.eq <|
    Writes.all hv (Protocol.wire_string v t.Name) <|
    Writes.all hv (Protocol.wire_structs v (AddPartitionsToTxnPartitionResult24.conforms hv) t.Results) <|
    Writes.done

/-- There is nothing that may not be nil. -/
def AddPartitionsToTxnTopicResult24.Full (_v : Int16) (_t : AddPartitionsToTxnTopicResult24) : Prop := True

theorem AddPartitionsToTxnTopicResult24.valid {v : Int16} (hv : 0 ≤ v) (t : AddPartitionsToTxnTopicResult24) (h : t.Fits v) (_hf : t.Full v) :
    Protocol.AddPartitionsToTxnTopicResult.Valid true v (AddPartitionsToTxnTopicResult24.val t) :=
  Valids.all (valid_string (h.Name)) <|
    Valids.all (valid_structs (fun y h hf => AddPartitionsToTxnPartitionResult24.valid hv y h hf) (h.Results) (fun _ _ => trivial)) <|
    trivial

/-- What `AddPartitionsToTxnTopicResult24` holds after reading the value `x` into `t0`. -/
def AddPartitionsToTxnTopicResult24.of (v : Int16) (x : Val) (t0 : AddPartitionsToTxnTopicResult24) : AddPartitionsToTxnTopicResult24 :=
  { Name := (x.get "Name").toStr,
    Results := (x.get "Results").toSliceOr (fun y => AddPartitionsToTxnPartitionResult24.of v y {}) t0.Results }

theorem AddPartitionsToTxnTopicResult24.decodes {v : Int16} (hv : 0 ≤ v) (x : Val) (h : Protocol.AddPartitionsToTxnTopicResult.Valid false v x) (t0 : AddPartitionsToTxnTopicResult24) :
    Reads (AddPartitionsToTxnTopicResult24.decode v t0) (Protocol.AddPartitionsToTxnTopicResult.wire false v x) (AddPartitionsToTxnTopicResult24.of v x t0) :=
  Reads.congr (((Step.field (set := fun (t : AddPartitionsToTxnTopicResult24) x => { t with Name := x }) (read_string (Fields.Valid.head (h) hv)))
      |>.andThen (Step.readStructs (get := fun (t : AddPartitionsToTxnTopicResult24) => t.Results) (set := fun (t : AddPartitionsToTxnTopicResult24) x => { t with Results := x }) (fun y hy => AddPartitionsToTxnPartitionResult24.decodes hv y hy {}) (Fields.Valid.head (Fields.Valid.tail h) hv)) : Step _ _ _) t0)
    (Writes.eq (fs := Protocol.AddPartitionsToTxnTopicResult) (v := v) (x := x) <| Writes.all hv rfl <| Writes.all hv rfl <| Writes.done).symm rfl

theorem AddPartitionsToTxnTopicResult24.parses {v : Int16} (hv : 0 ≤ v) (t0 : AddPartitionsToTxnTopicResult24) :
    Parses (AddPartitionsToTxnTopicResult24.decode v t0) ((Ty.struct Protocol.AddPartitionsToTxnTopicResult).parse v) (fun x => AddPartitionsToTxnTopicResult24.of v x t0) :=
  FParses.parses (fs := Protocol.AddPartitionsToTxnTopicResult)
    (FParses.field hv (set := fun (t : AddPartitionsToTxnTopicResult24) x => { t with Name := x }) par_string <|
    FParses.structs hv (get := fun (t : AddPartitionsToTxnTopicResult24) => t.Results) (set := fun (t : AddPartitionsToTxnTopicResult24) x => { t with Results := x }) (AddPartitionsToTxnPartitionResult24.parses hv {}) <|
    FParses.done)
    (by simp only [AddPartitionsToTxnTopicResult24.decode, Dec.andThen_nop]) (Fields.distinct_nodup _ (by decide +kernel)) (fun _ _ => rfl) t0

theorem AddPartitionsToTxnTopicResult24.shown {v : Int16} (hv : 0 ≤ v) (x : Val) (h : Protocol.AddPartitionsToTxnTopicResult.Typed v x) :
    Protocol.AddPartitionsToTxnTopicResult.shows v x (AddPartitionsToTxnTopicResult24.val (AddPartitionsToTxnTopicResult24.of v x {})) = true :=
  Shows.all hv (show_string (Fields.Typed.head (h) hv)) <|
    Shows.all hv (show_structs (f := AddPartitionsToTxnPartitionResult24.val) (g := fun y => AddPartitionsToTxnPartitionResult24.of v y {}) (fun y hy => AddPartitionsToTxnPartitionResult24.shown hv y hy) (Fields.Typed.head (Fields.Typed.tail h) hv)) <|
    rfl

/-- `AddPartitionsToTxnResponse` as a value of the protocol. -/
def AddPartitionsToTxnResponse.val (t : AddPartitionsToTxnResponse) : Val :=
  .struct [("ThrottleTimeMs", .int32 t.ThrottleTimeMs),
    ("Results", ofStructs AddPartitionsToTxnTopicResult24.val t.Results)]

theorem AddPartitionsToTxnResponse.conforms {v : Int16} (hv : 0 ≤ v) (t : AddPartitionsToTxnResponse) :
    Protocol.AddPartitionsToTxnResponse.wire false v (AddPartitionsToTxnResponse.val t) = AddPartitionsToTxnResponse.wire v t :=
  Writes.eq <|
    Writes.all hv (Protocol.wire_int32 v t.ThrottleTimeMs) <|
    Writes.all hv (Protocol.wire_structs v (AddPartitionsToTxnTopicResult24.conforms hv) t.Results) <|
    Writes.done

/-- There is nothing that may not be nil. -/
def AddPartitionsToTxnResponse.Full (_v : Int16) (_t : AddPartitionsToTxnResponse) : Prop := True

theorem AddPartitionsToTxnResponse.valid {v : Int16} (hv : 0 ≤ v) (t : AddPartitionsToTxnResponse) (h : t.Fits v) (_hf : t.Full v) :
    Protocol.AddPartitionsToTxnResponse.Valid true v (AddPartitionsToTxnResponse.val t) :=
  Valids.all trivial <|
    Valids.all (valid_structs (fun y h hf => AddPartitionsToTxnTopicResult24.valid hv y h hf) (h.Results) (fun _ _ => trivial)) <|
    trivial

/-- What `AddPartitionsToTxnResponse` holds after reading the value `x` into `t0`. -/
def AddPartitionsToTxnResponse.of (v : Int16) (x : Val) (t0 : AddPartitionsToTxnResponse) : AddPartitionsToTxnResponse :=
  { ThrottleTimeMs := (x.get "ThrottleTimeMs").toInt32,
    Results := (x.get "Results").toSliceOr (fun y => AddPartitionsToTxnTopicResult24.of v y {}) t0.Results }

theorem AddPartitionsToTxnResponse.decodes {v : Int16} (hv : 0 ≤ v) (x : Val) (h : Protocol.AddPartitionsToTxnResponse.Valid false v x) (t0 : AddPartitionsToTxnResponse) :
    Reads (AddPartitionsToTxnResponse.decode v t0) (Protocol.AddPartitionsToTxnResponse.wire false v x) (AddPartitionsToTxnResponse.of v x t0) :=
  Reads.congr (((Step.field (set := fun (t : AddPartitionsToTxnResponse) x => { t with ThrottleTimeMs := x }) (read_int32 (Fields.Valid.head (h) hv)))
      |>.andThen (Step.readStructs (get := fun (t : AddPartitionsToTxnResponse) => t.Results) (set := fun (t : AddPartitionsToTxnResponse) x => { t with Results := x }) (fun y hy => AddPartitionsToTxnTopicResult24.decodes hv y hy {}) (Fields.Valid.head (Fields.Valid.tail h) hv)) : Step _ _ _) t0)
    (Writes.eq (fs := Protocol.AddPartitionsToTxnResponse) (v := v) (x := x) <| Writes.all hv rfl <| Writes.all hv rfl <| Writes.done).symm rfl

theorem AddPartitionsToTxnResponse.parses {v : Int16} (hv : 0 ≤ v) (t0 : AddPartitionsToTxnResponse) :
    Parses (AddPartitionsToTxnResponse.decode v t0) ((Ty.struct Protocol.AddPartitionsToTxnResponse).parse v) (fun x => AddPartitionsToTxnResponse.of v x t0) :=
  FParses.parses (fs := Protocol.AddPartitionsToTxnResponse)
    (FParses.field hv (set := fun (t : AddPartitionsToTxnResponse) x => { t with ThrottleTimeMs := x }) par_int32 <|
    FParses.structs hv (get := fun (t : AddPartitionsToTxnResponse) => t.Results) (set := fun (t : AddPartitionsToTxnResponse) x => { t with Results := x }) (AddPartitionsToTxnTopicResult24.parses hv {}) <|
    FParses.done)
    (by simp only [AddPartitionsToTxnResponse.decode, Dec.andThen_nop]) (Fields.distinct_nodup _ (by decide +kernel)) (fun _ _ => rfl) t0

theorem AddPartitionsToTxnResponse.shown {v : Int16} (hv : 0 ≤ v) (x : Val) (h : Protocol.AddPartitionsToTxnResponse.Typed v x) :
    Protocol.AddPartitionsToTxnResponse.shows v x (AddPartitionsToTxnResponse.val (AddPartitionsToTxnResponse.of v x {})) = true :=
  Shows.all hv (show_int32 (Fields.Typed.head (h) hv)) <|
    Shows.all hv (show_structs (f := AddPartitionsToTxnTopicResult24.val) (g := fun y => AddPartitionsToTxnTopicResult24.of v y {}) (fun y hy => AddPartitionsToTxnTopicResult24.shown hv y hy) (Fields.Typed.head (Fields.Typed.tail h) hv)) <|
    rfl

end Kafka.Msg
