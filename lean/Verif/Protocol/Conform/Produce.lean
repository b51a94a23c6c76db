import Verif.Protocol.ParseLemmas
import Verif.Gen.Spec.Produce
/-!
Generated by tools/gen_protocol.py: the Produce messages are written and read as the protocol says.
-/
namespace Kafka.Msg

open Protocol

/-- `PartitionProduceData0` as a value of the protocol. -/
def PartitionProduceData0.val (t : PartitionProduceData0) : Val :=
  .struct [("PartitionIndex", .int32 t.PartitionIndex),
    ("Records", .bytes (some t.Records.elems))]

theorem PartitionProduceData0.conforms {v : Int16} (hv : 0 ≤ v) (t : PartitionProduceData0) :
    Protocol.PartitionProduceData.wire false v (PartitionProduceData0.val t) = PartitionProduceData0.wire v t :=
  Writes.eq <|
    Writes.all hv (Protocol.wire_int32 v t.PartitionIndex) <|
    Writes.all hv (Protocol.wire_bytes v t.Records) <|
    Writes.done

/-- There is nothing that may not be nil. -/
def PartitionProduceData0.Full (_v : Int16) (_t : PartitionProduceData0) : Prop := True

theorem PartitionProduceData0.valid {v : Int16} (_hv : 0 ≤ v) (t : PartitionProduceData0) (h : t.Fits v) (_hf : t.Full v) :
    Protocol.PartitionProduceData.Valid true v (PartitionProduceData0.val t) :=
  Valids.all trivial <|
    Valids.all (valid_bytes (h.Records)) <|
    trivial

/-- `TopicProduceData0` as a value of the protocol. -/
def TopicProduceData0.val (t : TopicProduceData0) : Val :=
  .struct [("Name", .str (some t.Name)),
    ("Partitions", ofStructs PartitionProduceData0.val t.Partitions)]

theorem TopicProduceData0.conforms {v : Int16} (hv : 0 ≤ v) (t : TopicProduceData0) :
    Protocol.TopicProduceData.wire false v (TopicProduceData0.val t) = TopicProduceData0.wire v t :=
  Writes.eq <|
    Writes.all hv (Protocol.wire_string v t.Name) <|
    Writes.all hv (Protocol.wire_structs v (PartitionProduceData0.conforms hv) t.Partitions) <|
    Writes.done

/-- There is nothing that may not be nil. -/
def TopicProduceData0.Full (_v : Int16) (_t : TopicProduceData0) : Prop := True

theorem TopicProduceData0.valid {v : Int16} (hv : 0 ≤ v) (t : TopicProduceData0) (h : t.Fits v) (_hf : t.Full v) :
    Protocol.TopicProduceData.Valid true v (TopicProduceData0.val t) :=
  Valids.all (valid_string (h.Name)) <|
    Valids.all (valid_structs (fun y h hf => PartitionProduceData0.valid hv y h hf) (h.Partitions) (fun _ _ => trivial)) <|
    trivial

/-- `ProduceRequest` as a value of the protocol. -/
def ProduceRequest.val (t : ProduceRequest) : Val :=
  .struct [("TransactionalId", .str (some t.TransactionalId)),
    ("Acks", .int16 t.Acks),
    ("TimeoutMs", .int32 t.TimeoutMs),
    ("Topics", ofStructs TopicProduceData0.val t.Topics)]

theorem ProduceRequest.conforms {v : Int16} (hv : 0 ≤ v) (t : ProduceRequest) :
    Protocol.ProduceRequest.wire false v (ProduceRequest.val t) = ProduceRequest.wire v t :=
  Writes.eq <|
    Writes.since (Protocol.wire_string v t.TransactionalId) <|
    Writes.all hv (Protocol.wire_int16 v t.Acks) <|
    Writes.all hv (Protocol.wire_int32 v t.TimeoutMs) <|
    Writes.all hv (Protocol.wire_structs v (TopicProduceData0.conforms hv) t.Topics) <|
    Writes.done

/-- There is nothing that may not be nil. -/
def ProduceRequest.Full (_v : Int16) (_t : ProduceRequest) : Prop := True

theorem ProduceRequest.valid {v : Int16} (hv : 0 ≤ v) (t : ProduceRequest) (h : t.Fits v) (_hf : t.Full v) :
    Protocol.ProduceRequest.Valid true v (ProduceRequest.val t) :=
  Valids.since (fun hc => valid_string (h.TransactionalId hc)) <|
    Valids.all trivial <|
    Valids.all trivial <|
    Valids.all (valid_structs (fun y h hf => TopicProduceData0.valid hv y h hf) (h.Topics) (fun _ _ => trivial)) <|
    trivial

/-- `BatchIndexAndErrorMessage0` as a value of the protocol. -/
def BatchIndexAndErrorMessage0.val (t : BatchIndexAndErrorMessage0) : Val :=
  .struct [("BatchIndex", .int32 t.BatchIndex),
    ("BatchIndexErrorMessage", .str (some t.BatchIndexErrorMessage))]

theorem BatchIndexAndErrorMessage0.conforms {v : Int16} (_hv : 0 ≤ v) (t : BatchIndexAndErrorMessage0) :
    Protocol.BatchIndexAndErrorMessage.wire false v (BatchIndexAndErrorMessage0.val t) = BatchIndexAndErrorMessage0.wire v t :=
  Writes.eq <|
    Writes.since (Protocol.wire_int32 v t.BatchIndex) <|
    Writes.since (Protocol.wire_string v t.BatchIndexErrorMessage) <|
    Writes.done

/-- There is nothing that may not be nil. -/
def BatchIndexAndErrorMessage0.Full (_v : Int16) (_t : BatchIndexAndErrorMessage0) : Prop := True

theorem BatchIndexAndErrorMessage0.valid {v : Int16} (_hv : 0 ≤ v) (t : BatchIndexAndErrorMessage0) (h : t.Fits v) (_hf : t.Full v) :
    Protocol.BatchIndexAndErrorMessage.Valid true v (BatchIndexAndErrorMessage0.val t) :=
  Valids.since (fun _ => trivial) <|
    Valids.since (fun hc => valid_string (h.BatchIndexErrorMessage hc)) <|
    trivial

/-- What `BatchIndexAndErrorMessage0` holds after reading the value `x` into `t0`. -/
def BatchIndexAndErrorMessage0.of (v : Int16) (x : Val) (t0 : BatchIndexAndErrorMessage0) : BatchIndexAndErrorMessage0 :=
  { BatchIndex := if v ≥ 8 then (x.get "BatchIndex").toInt32 else t0.BatchIndex,
    BatchIndexErrorMessage := if v ≥ 8 then (x.get "BatchIndexErrorMessage").toStr else t0.BatchIndexErrorMessage }

theorem BatchIndexAndErrorMessage0.decodes {v : Int16} (_hv : 0 ≤ v) (x : Val) (h : Protocol.BatchIndexAndErrorMessage.Valid false v x) (t0 : BatchIndexAndErrorMessage0) :
    Reads (BatchIndexAndErrorMessage0.decode v t0) (Protocol.BatchIndexAndErrorMessage.wire false v x) (BatchIndexAndErrorMessage0.of v x t0) :=
  Reads.congr (((Step.optField (c := v ≥ 8) (set := fun (t : BatchIndexAndErrorMessage0) x => { t with BatchIndex := x }) (·.BatchIndex) (fun _ => rfl) fun hc => read_int32 (Fields.Valid.head (h) hc))
      |>.andThen (Step.optField (c := v ≥ 8) (set := fun (t : BatchIndexAndErrorMessage0) x => { t with BatchIndexErrorMessage := x }) (·.BatchIndexErrorMessage) (fun _ => rfl) fun hc => read_string (Fields.Valid.head (Fields.Valid.tail h) hc)) : Step _ _ _) t0)
    (Writes.eq (fs := Protocol.BatchIndexAndErrorMessage) (v := v) (x := x) <| Writes.since rfl <| Writes.since rfl <| Writes.done).symm rfl

theorem BatchIndexAndErrorMessage0.parses {v : Int16} (_hv : 0 ≤ v) (t0 : BatchIndexAndErrorMessage0) :
    Parses (BatchIndexAndErrorMessage0.decode v t0) ((Ty.struct Protocol.BatchIndexAndErrorMessage).parse v) (fun x => BatchIndexAndErrorMessage0.of v x t0) :=
  FParses.parses (fs := Protocol.BatchIndexAndErrorMessage)
    (FParses.optField (c := v ≥ 8) Iff.rfl (set := fun (t : BatchIndexAndErrorMessage0) x => { t with BatchIndex := x }) (·.BatchIndex) (fun _ => rfl) par_int32 <|
    FParses.optField (c := v ≥ 8) Iff.rfl (set := fun (t : BatchIndexAndErrorMessage0) x => { t with BatchIndexErrorMessage := x }) (·.BatchIndexErrorMessage) (fun _ => rfl) par_string <|
    FParses.done)
    (by simp only [BatchIndexAndErrorMessage0.decode, Dec.andThen_nop]) (Fields.distinct_nodup _ (by decide +kernel)) (fun _ _ => rfl) t0

theorem BatchIndexAndErrorMessage0.shown {v : Int16} (_hv : 0 ≤ v) (x : Val) (h : Protocol.BatchIndexAndErrorMessage.Typed v x) :
    Protocol.BatchIndexAndErrorMessage.shows v x (BatchIndexAndErrorMessage0.val (BatchIndexAndErrorMessage0.of v x {})) = true :=
  Shows.since (.int32) rfl (fun hc => show_int32 (Fields.Typed.head (h) hc)) rfl <|
    Shows.since (fun s => .str (some s)) rfl (fun hc => show_string (Fields.Typed.head (Fields.Typed.tail h) hc)) rfl <|
    rfl

/-- `PartitionProduceResponse0` as a value of the protocol. -/
def PartitionProduceResponse0.val (t : PartitionProduceResponse0) : Val :=
  .struct [("PartitionIndex", .int32 t.PartitionIndex),
    ("ErrorCode", .int16 t.ErrorCode),
    ("BaseOffset", .int64 t.BaseOffset),
    ("LogAppendTimeMs", .int64 t.LogAppendTimeMs),
    ("LogStartOffset", .int64 t.LogStartOffset),
    ("RecordErrors", ofStructs BatchIndexAndErrorMessage0.val t.RecordErrors),
    ("ErrorMessage", .str (some t.ErrorMessage))]

theorem PartitionProduceResponse0.conforms {v : Int16} (hv : 0 ≤ v) (t : PartitionProduceResponse0) :
    Protocol.PartitionProduceResponse.wire false v (PartitionProduceResponse0.val t) = PartitionProduceResponse0.wire v t :=
  Writes.eq <|
    Writes.all hv (Protocol.wire_int32 v t.PartitionIndex) <|
    Writes.all hv (Protocol.wire_int16 v t.ErrorCode) <|
    Writes.all hv (Protocol.wire_int64 v t.BaseOffset) <|
    Writes.since (Protocol.wire_int64 v t.LogAppendTimeMs) <|
    Writes.since (Protocol.wire_int64 v t.LogStartOffset) <|
    Writes.since (Protocol.wire_structs v (BatchIndexAndErrorMessage0.conforms hv) t.RecordErrors) <|
    Writes.since (Protocol.wire_string v t.ErrorMessage) <|
    Writes.done

/-- There is nothing that may not be nil. -/
def PartitionProduceResponse0.Full (_v : Int16) (_t : PartitionProduceResponse0) : Prop := True

theorem PartitionProduceResponse0.valid {v : Int16} (hv : 0 ≤ v) (t : PartitionProduceResponse0) (h : t.Fits v) (_hf : t.Full v) :
    Protocol.PartitionProduceResponse.Valid true v (PartitionProduceResponse0.val t) :=
  Valids.all trivial <|
    Valids.all trivial <|
    Valids.all trivial <|
    Valids.since (fun _ => trivial) <|
    Valids.since (fun _ => trivial) <|
    Valids.since (fun hc => valid_structs (fun y h hf => BatchIndexAndErrorMessage0.valid hv y h hf) (h.RecordErrors hc) (fun _ _ => trivial)) <|
    Valids.since (fun hc => valid_string (h.ErrorMessage hc)) <|
    trivial

/-- What `PartitionProduceResponse0` holds after reading the value `x` into `t0`. -/
def PartitionProduceResponse0.of (v : Int16) (x : Val) (t0 : PartitionProduceResponse0) : PartitionProduceResponse0 :=
  { PartitionIndex := (x.get "PartitionIndex").toInt32,
    ErrorCode := (x.get "ErrorCode").toInt16,
    BaseOffset := (x.get "BaseOffset").toInt64,
    LogAppendTimeMs := if v ≥ 2 then (x.get "LogAppendTimeMs").toInt64 else t0.LogAppendTimeMs,
    LogStartOffset := if v ≥ 5 then (x.get "LogStartOffset").toInt64 else t0.LogStartOffset,
    RecordErrors := if v ≥ 8 then (x.get "RecordErrors").toSliceOr (fun y => BatchIndexAndErrorMessage0.of v y {}) t0.RecordErrors else t0.RecordErrors,
    ErrorMessage := if v ≥ 8 then (x.get "ErrorMessage").toStr else t0.ErrorMessage }

theorem PartitionProduceResponse0.decodes {v : Int16} (hv : 0 ≤ v) (x : Val) (h : Protocol.PartitionProduceResponse.Valid false v x) (t0 : PartitionProduceResponse0) :
    Reads (PartitionProduceResponse0.decode v t0) (Protocol.PartitionProduceResponse.wire false v x) (PartitionProduceResponse0.of v x t0) :=
  Reads.congr (((Step.field (set := fun (t : PartitionProduceResponse0) x => { t with PartitionIndex := x }) (read_int32 (Fields.Valid.head (h) hv)))
      |>.andThen (Step.field (set := fun (t : PartitionProduceResponse0) x => { t with ErrorCode := x }) (read_int16 (Fields.Valid.head (Fields.Valid.tail h) hv)))
      |>.andThen (Step.field (set := fun (t : PartitionProduceResponse0) x => { t with BaseOffset := x }) (read_int64 (Fields.Valid.head (Fields.Valid.tail (Fields.Valid.tail h)) hv)))
      |>.andThen (Step.optField (c := v ≥ 2) (set := fun (t : PartitionProduceResponse0) x => { t with LogAppendTimeMs := x }) (·.LogAppendTimeMs) (fun _ => rfl) fun hc => read_int64 (Fields.Valid.head (Fields.Valid.tail (Fields.Valid.tail (Fields.Valid.tail h))) hc))
      |>.andThen (Step.optField (c := v ≥ 5) (set := fun (t : PartitionProduceResponse0) x => { t with LogStartOffset := x }) (·.LogStartOffset) (fun _ => rfl) fun hc => read_int64 (Fields.Valid.head (Fields.Valid.tail (Fields.Valid.tail (Fields.Valid.tail (Fields.Valid.tail h)))) hc))
      |>.andThen (Step.readOptStructs (c := v ≥ 8) (get := fun (t : PartitionProduceResponse0) => t.RecordErrors) (set := fun (t : PartitionProduceResponse0) x => { t with RecordErrors := x }) (fun _ => rfl) (fun y hy => BatchIndexAndErrorMessage0.decodes hv y hy {}) fun hc => Fields.Valid.head (Fields.Valid.tail (Fields.Valid.tail (Fields.Valid.tail (Fields.Valid.tail (Fields.Valid.tail h))))) hc)
      |>.andThen (Step.optField (c := v ≥ 8) (set := fun (t : PartitionProduceResponse0) x => { t with ErrorMessage := x }) (·.ErrorMessage) (fun _ => rfl) fun hc => read_string (Fields.Valid.head (Fields.Valid.tail (Fields.Valid.tail (Fields.Valid.tail (Fields.Valid.tail (Fields.Valid.tail (Fields.Valid.tail h)))))) hc)) : Step _ _ _) t0)
    (Writes.eq (fs := Protocol.PartitionProduceResponse) (v := v) (x := x) <| Writes.all hv rfl <| Writes.all hv rfl <| Writes.all hv rfl <| Writes.since rfl <| Writes.since rfl <| Writes.since rfl <| Writes.since rfl <| Writes.done).symm rfl

theorem PartitionProduceResponse0.parses {v : Int16} (hv : 0 ≤ v) (t0 : PartitionProduceResponse0) :
    Parses (PartitionProduceResponse0.decode v t0) ((Ty.struct Protocol.PartitionProduceResponse).parse v) (fun x => PartitionProduceResponse0.of v x t0) :=
  FParses.parses (fs := Protocol.PartitionProduceResponse)
    (FParses.field hv (set := fun (t : PartitionProduceResponse0) x => { t with PartitionIndex := x }) par_int32 <|
    FParses.field hv (set := fun (t : PartitionProduceResponse0) x => { t with ErrorCode := x }) par_int16 <|
    FParses.field hv (set := fun (t : PartitionProduceResponse0) x => { t with BaseOffset := x }) par_int64 <|
    FParses.optField (c := v ≥ 2) Iff.rfl (set := fun (t : PartitionProduceResponse0) x => { t with LogAppendTimeMs := x }) (·.LogAppendTimeMs) (fun _ => rfl) par_int64 <|
    FParses.optField (c := v ≥ 5) Iff.rfl (set := fun (t : PartitionProduceResponse0) x => { t with LogStartOffset := x }) (·.LogStartOffset) (fun _ => rfl) par_int64 <|
    FParses.optStructs (c := v ≥ 8) Iff.rfl (get := fun (t : PartitionProduceResponse0) => t.RecordErrors) (set := fun (t : PartitionProduceResponse0) x => { t with RecordErrors := x }) (fun _ => rfl) (BatchIndexAndErrorMessage0.parses hv {}) <|
    FParses.optField (c := v ≥ 8) Iff.rfl (set := fun (t : PartitionProduceResponse0) x => { t with ErrorMessage := x }) (·.ErrorMessage) (fun _ => rfl) par_string <|
    FParses.done)
    (by simp only [PartitionProduceResponse0.decode, Dec.andThen_assoc, Dec.andThen_nop]) (Fields.distinct_nodup _ (by decide +kernel)) (fun _ _ => rfl) t0

theorem PartitionProduceResponse0.shown {v : Int16} (hv : 0 ≤ v) (x : Val) (h : Protocol.PartitionProduceResponse.Typed v x) :
    Protocol.PartitionProduceResponse.shows v x (PartitionProduceResponse0.val (PartitionProduceResponse0.of v x {})) = true :=
  Shows.all hv (show_int32 (Fields.Typed.head (h) hv)) <|
    Shows.all hv (show_int16 (Fields.Typed.head (Fields.Typed.tail h) hv)) <|
    Shows.all hv (show_int64 (Fields.Typed.head (Fields.Typed.tail (Fields.Typed.tail h)) hv)) <|
    Shows.since (.int64) rfl (fun hc => show_int64 (Fields.Typed.head (Fields.Typed.tail (Fields.Typed.tail (Fields.Typed.tail h))) hc)) rfl <|
    Shows.since (.int64) rfl (fun hc => show_int64 (Fields.Typed.head (Fields.Typed.tail (Fields.Typed.tail (Fields.Typed.tail (Fields.Typed.tail h)))) hc)) rfl <|
    Shows.since (ofStructs BatchIndexAndErrorMessage0.val) rfl (fun hc => show_structs (f := BatchIndexAndErrorMessage0.val) (g := fun y => BatchIndexAndErrorMessage0.of v y {}) (fun y hy => BatchIndexAndErrorMessage0.shown hv y hy) (Fields.Typed.head (Fields.Typed.tail (Fields.Typed.tail (Fields.Typed.tail (Fields.Typed.tail (Fields.Typed.tail h))))) hc)) rfl <|
    Shows.since (fun s => .str (some s)) rfl (fun hc => show_string (Fields.Typed.head (Fields.Typed.tail (Fields.Typed.tail (Fields.Typed.tail (Fields.Typed.tail (Fields.Typed.tail (Fields.Typed.tail h)))))) hc)) rfl <|
    rfl

/-- `TopicProduceResponse0` as a value of the protocol. -/
def TopicProduceResponse0.val (t : TopicProduceResponse0) : Val :=
  .struct [("Name", .str (some t.Name)),
    ("Partitions", ofStructs PartitionProduceResponse0.val t.Partitions)]

theorem TopicProduceResponse0.conforms {v : Int16} (hv : 0 ≤ v) (t : TopicProduceResponse0) :
    Protocol.TopicProduceResponse.wire false v (TopicProduceResponse0.val t) = TopicProduceResponse0.wire v t :=
  Writes.eq <|
    Writes.all hv (Protocol.wire_string v t.Name) <|
    Writes.all hv (Protocol.wire_structs v (PartitionProduceResponse0.conforms hv) t.Partitions) <|
    Writes.done

/-- There is nothing that may not be nil. -/
def TopicProduceResponse0.Full (_v : Int16) (_t : TopicProduceResponse0) : Prop := True

theorem TopicProduceResponse0.valid {v : Int16} (hv : 0 ≤ v) (t : TopicProduceResponse0) (h : t.Fits v) (_hf : t.Full v) :
    Protocol.TopicProduceResponse.Valid true v (TopicProduceResponse0.val t) :=
  Valids.all (valid_string (h.Name)) <|
    Valids.all (valid_structs (fun y h hf => PartitionProduceResponse0.valid hv y h hf) (h.Partitions) (fun _ _ => trivial)) <|
    trivial

/-- What `TopicProduceResponse0` holds after reading the value `x` into `t0`. -/
def TopicProduceResponse0.of (v : Int16) (x : Val) (t0 : TopicProduceResponse0) : TopicProduceResponse0 :=
  { Name := (x.get "Name").toStr,
    Partitions := (x.get "Partitions").toSliceOr (fun y => PartitionProduceResponse0.of v y {}) t0.Partitions }

theorem TopicProduceResponse0.decodes {v : Int16} (hv : 0 ≤ v) (x : Val) (h : Protocol.TopicProduceResponse.Valid false v x) (t0 : TopicProduceResponse0) :
    Reads (TopicProduceResponse0.decode v t0) (Protocol.TopicProduceResponse.wire false v x) (TopicProduceResponse0.of v x t0) :=
  Reads.congr (((Step.field (set := fun (t : TopicProduceResponse0) x => { t with Name := x }) (read_string (Fields.Valid.head (h) hv)))
      |>.andThen (Step.readStructs (get := fun (t : TopicProduceResponse0) => t.Partitions) (set := fun (t : TopicProduceResponse0) x => { t with Partitions := x }) (fun y hy => PartitionProduceResponse0.decodes hv y hy {}) (Fields.Valid.head (Fields.Valid.tail h) hv)) : Step _ _ _) t0)
    (Writes.eq (fs := Protocol.TopicProduceResponse) (v := v) (x := x) <| Writes.all hv rfl <| Writes.all hv rfl <| Writes.done).symm rfl

theorem TopicProduceResponse0.parses {v : Int16} (hv : 0 ≤ v) (t0 : TopicProduceResponse0) :
    Parses (TopicProduceResponse0.decode v t0) ((Ty.struct Protocol.TopicProduceResponse).parse v) (fun x => TopicProduceResponse0.of v x t0) :=
  FParses.parses (fs := Protocol.TopicProduceResponse)
    (FParses.field hv (set := fun (t : TopicProduceResponse0) x => { t with Name := x }) par_string <|
    FParses.structs hv (get := fun (t : TopicProduceResponse0) => t.Partitions) (set := fun (t : TopicProduceResponse0) x => { t with Partitions := x }) (PartitionProduceResponse0.parses hv {}) <|
    FParses.done)
    (by simp only [TopicProduceResponse0.decode, Dec.andThen_nop]) (Fields.distinct_nodup _ (by decide +kernel)) (fun _ _ => rfl) t0

theorem TopicProduceResponse0.shown {v : Int16} (hv : 0 ≤ v) (x : Val) (h : Protocol.TopicProduceResponse.Typed v x) :
    Protocol.TopicProduceResponse.shows v x (TopicProduceResponse0.val (TopicProduceResponse0.of v x {})) = true :=
  Shows.all hv (show_string (Fields.Typed.head (h) hv)) <|
    Shows.all hv (show_structs (f := PartitionProduceResponse0.val) (g := fun y => PartitionProduceResponse0.of v y {}) (fun y hy => PartitionProduceResponse0.shown hv y hy) (Fields.Typed.head (Fields.Typed.tail h) hv)) <|
    rfl

/-- `ProduceResponse` as a value of the protocol. -/
def ProduceResponse.val (t : ProduceResponse) : Val :=
  .struct [("Responses", ofStructs TopicProduceResponse0.val t.Responses),
    ("ThrottleTimeMs", .int32 t.ThrottleTimeMs)]

theorem ProduceResponse.conforms {v : Int16} (hv : 0 ≤ v) (t : ProduceResponse) :
    Protocol.ProduceResponse.wire false v (ProduceResponse.val t) = ProduceResponse.wire v t :=
  Writes.eq <|
    Writes.all hv (Protocol.wire_structs v (TopicProduceResponse0.conforms hv) t.Responses) <|
    Writes.since (Protocol.wire_int32 v t.ThrottleTimeMs) <|
    Writes.done

/-- There is nothing that may not be nil. -/
def ProduceResponse.Full (_v : Int16) (_t : ProduceResponse) : Prop := True

theorem ProduceResponse.valid {v : Int16} (hv : 0 ≤ v) (t : ProduceResponse) (h : t.Fits v) (_hf : t.Full v) :
    Protocol.ProduceResponse.Valid true v (ProduceResponse.val t) :=
  Valids.all (valid_structs (fun y h hf => TopicProduceResponse0.valid hv y h hf) (h.Responses) (fun _ _ => trivial)) <|
    Valids.since (fun _ => trivial) <|
    trivial

/-- What `ProduceResponse` holds after reading the value `x` into `t0`. -/
def ProduceResponse.of (v : Int16) (x : Val) (t0 : ProduceResponse) : ProduceResponse :=
  { Responses := (x.get "Responses").toSliceOr (fun y => TopicProduceResponse0.of v y {}) t0.Responses,
    ThrottleTimeMs := if v ≥ 1 then (x.get "ThrottleTimeMs").toInt32 else t0.ThrottleTimeMs }

theorem ProduceResponse.decodes {v : Int16} (hv : 0 ≤ v) (x : Val) (h : Protocol.ProduceResponse.Valid false v x) (t0 : ProduceResponse) :
    Reads (ProduceResponse.decode v t0) (Protocol.ProduceResponse.wire false v x) (ProduceResponse.of v x t0) :=
  Reads.congr (((Step.readStructs (get := fun (t : ProduceResponse) => t.Responses) (set := fun (t : ProduceResponse) x => { t with Responses := x }) (fun y hy => TopicProduceResponse0.decodes hv y hy {}) (Fields.Valid.head (h) hv))
      |>.andThen (Step.optField (c := v ≥ 1) (set := fun (t : ProduceResponse) x => { t with ThrottleTimeMs := x }) (·.ThrottleTimeMs) (fun _ => rfl) fun hc => read_int32 (Fields.Valid.head (Fields.Valid.tail h) hc)) : Step _ _ _) t0)
    (Writes.eq (fs := Protocol.ProduceResponse) (v := v) (x := x) <| Writes.all hv rfl <| Writes.since rfl <| Writes.done).symm rfl

theorem ProduceResponse.parses {v : Int16} (hv : 0 ≤ v) (t0 : ProduceResponse) :
    Parses (ProduceResponse.decode v t0) ((Ty.struct Protocol.ProduceResponse).parse v) (fun x => ProduceResponse.of v x t0) :=
  FParses.parses (fs := Protocol.ProduceResponse)
    (FParses.structs hv (get := fun (t : ProduceResponse) => t.Responses) (set := fun (t : ProduceResponse) x => { t with Responses := x }) (TopicProduceResponse0.parses hv {}) <|
    FParses.optField (c := v ≥ 1) Iff.rfl (set := fun (t : ProduceResponse) x => { t with ThrottleTimeMs := x }) (·.ThrottleTimeMs) (fun _ => rfl) par_int32 <|
    FParses.done)
    (by simp only [ProduceResponse.decode, Dec.andThen_nop]) (Fields.distinct_nodup _ (by decide +kernel)) (fun _ _ => rfl) t0

theorem ProduceResponse.shown {v : Int16} (hv : 0 ≤ v) (x : Val) (h : Protocol.ProduceResponse.Typed v x) :
    Protocol.ProduceResponse.shows v x (ProduceResponse.val (ProduceResponse.of v x {})) = true :=
  Shows.all hv (show_structs (f := TopicProduceResponse0.val) (g := fun y => TopicProduceResponse0.of v y {}) (fun y hy => TopicProduceResponse0.shown hv y hy) (Fields.Typed.head (h) hv)) <|
    Shows.since (.int32) rfl (fun hc => show_int32 (Fields.Typed.head (Fields.Typed.tail h) hc)) rfl <|
    rfl

end Kafka.Msg
