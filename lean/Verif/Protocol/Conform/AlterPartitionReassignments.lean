import Verif.Protocol.ParseLemmas
import Verif.Gen.Spec.AlterPartitionReassignments
/-!
Generated by tools/gen_protocol.py: the AlterPartitionReassignments messages are written and read as the protocol says.
-/
namespace Kafka.Msg

open Protocol

/-- `ReassignablePartition45` as a value of the protocol. -/
def ReassignablePartition45.val (t : ReassignablePartition45) : Val :=
  .struct [("PartitionIndex", .int32 t.PartitionIndex),
    ("Replicas", ofScalars .int32 t.Replicas)]

theorem ReassignablePartition45.conforms {v : Int16} (hv : 0 ≤ v) (t : ReassignablePartition45) :
    Protocol.ReassignablePartition.wire false v (ReassignablePartition45.val t) = ReassignablePartition45.wire v t :=
  Writes.eq <|
    Writes.all hv (Protocol.wire_int32 v t.PartitionIndex) <|
    Writes.all hv (Protocol.wire_int32Array v t.Replicas) <|
    Writes.done

/-- There is nothing that may not be nil. -/
def ReassignablePartition45.Full (_v : Int16) (_t : ReassignablePartition45) : Prop := True

theorem ReassignablePartition45.valid {v : Int16} (hv : 0 ≤ v) (t : ReassignablePartition45) (h : t.Fits v) (_hf : t.Full v) :
    Protocol.ReassignablePartition.Valid true v (ReassignablePartition45.val t) :=
  Valids.all trivial <|
    Valids.all (valid_int32Array (h.Replicas) (.inl (nullable_zero hv))) <|
    trivial

/-- `ReassignableTopic45` as a value of the protocol. -/
def ReassignableTopic45.val (t : ReassignableTopic45) : Val :=
  .struct [("Name", .str (some t.Name)),
    ("Partitions", ofStructs ReassignablePartition45.val t.Partitions)]

theorem ReassignableTopic45.conforms {v : Int16} (hv : 0 ≤ v) (t : ReassignableTopic45) :
    Protocol.ReassignableTopic.wire false v (ReassignableTopic45.val t) = ReassignableTopic45.wire v t :=
  Writes.eq <|
    Writes.all hv (Protocol.wire_string v t.Name) <|
    Writes.all hv (Protocol.wire_structs v (ReassignablePartition45.conforms hv) t.Partitions) <|
    Writes.done

/-- There is nothing that may not be nil. -/
def ReassignableTopic45.Full (_v : Int16) (_t : ReassignableTopic45) : Prop := True

theorem ReassignableTopic45.valid {v : Int16} (hv : 0 ≤ v) (t : ReassignableTopic45) (h : t.Fits v) (_hf : t.Full v) :
    Protocol.ReassignableTopic.Valid true v (ReassignableTopic45.val t) :=
  Valids.all (valid_string (h.Name)) <|
    Valids.all (valid_structs (fun y h hf => ReassignablePartition45.valid hv y h hf) (h.Partitions) (fun _ _ => trivial)) <|
    trivial

/-- `AlterPartitionReassignmentsRequest` as a value of the protocol. -/
def AlterPartitionReassignmentsRequest.val (t : AlterPartitionReassignmentsRequest) : Val :=
  .struct [("TimeoutMs", .int32 t.TimeoutMs),
    ("Topics", ofStructs ReassignableTopic45.val t.Topics)]

theorem AlterPartitionReassignmentsRequest.conforms {v : Int16} (hv : 0 ≤ v) (t : AlterPartitionReassignmentsRequest) :
    Protocol.AlterPartitionReassignmentsRequest.wire false v (AlterPartitionReassignmentsRequest.val t) = AlterPartitionReassignmentsRequest.wire v t :=
  Writes.eq <|
    Writes.all hv (Protocol.wire_int32 v t.TimeoutMs) <|
    Writes.all hv (Protocol.wire_structs v (ReassignableTopic45.conforms hv) t.Topics) <|
    Writes.done

/-- There is nothing that may not be nil. -/
def AlterPartitionReassignmentsRequest.Full (_v : Int16) (_t : AlterPartitionReassignmentsRequest) : Prop := True

theorem AlterPartitionReassignmentsRequest.valid {v : Int16} (hv : 0 ≤ v) (t : AlterPartitionReassignmentsRequest) (h : t.Fits v) (_hf : t.Full v) :
    Protocol.AlterPartitionReassignmentsRequest.Valid true v (AlterPartitionReassignmentsRequest.val t) :=
  Valids.all trivial <|
    Valids.all (valid_structs (fun y h hf => ReassignableTopic45.valid hv y h hf) (h.Topics) (fun _ _ => trivial)) <|
    trivial

/-- `ReassignablePartitionResponse45` as a value of the protocol. -/
def ReassignablePartitionResponse45.val (t : ReassignablePartitionResponse45) : Val :=
  .struct [("PartitionIndex", .int32 t.PartitionIndex),
    ("ErrorCode", .int16 t.ErrorCode),
    ("ErrorMessage", .str (some t.ErrorMessage))]

theorem ReassignablePartitionResponse45.conforms {v : Int16} (hv : 0 ≤ v) (t : ReassignablePartitionResponse45) :
    Protocol.ReassignablePartitionResponse.wire false v (ReassignablePartitionResponse45.val t) = ReassignablePartitionResponse45.wire v t :=
  Writes.eq <|
    Writes.all hv (Protocol.wire_int32 v t.PartitionIndex) <|
    Writes.all hv (Protocol.wire_int16 v t.ErrorCode) <|
    Writes.all hv (Protocol.wire_string v t.ErrorMessage) <|
    Writes.done

/-- There is nothing that may not be nil. -/
def ReassignablePartitionResponse45.Full (_v : Int16) (_t : ReassignablePartitionResponse45) : Prop := True

theorem ReassignablePartitionResponse45.valid {v : Int16} (_hv : 0 ≤ v) (t : ReassignablePartitionResponse45) (h : t.Fits v) (_hf : t.Full v) :
    Protocol.ReassignablePartitionResponse.Valid true v (ReassignablePartitionResponse45.val t) :=
  Valids.all trivial <|
    Valids.all trivial <|
    Valids.all (valid_string (h.ErrorMessage)) <|
    trivial

/-- What `ReassignablePartitionResponse45` holds after reading the value `x` into `t0`. -/
def ReassignablePartitionResponse45.of (_v : Int16) (x : Val) (_t0 : ReassignablePartitionResponse45) : ReassignablePartitionResponse45 :=
  { PartitionIndex := (x.get "PartitionIndex").toInt32,
    ErrorCode := (x.get "ErrorCode").toInt16,
    ErrorMessage := (x.get "ErrorMessage").toStr }

theorem ReassignablePartitionResponse45.decodes {v : Int16} (hv : 0 ≤ v) (x : Val) (h : Protocol.ReassignablePartitionResponse.Valid false v x) (t0 : ReassignablePartitionResponse45) :
    Reads (ReassignablePartitionResponse45.decode v t0) (Protocol.ReassignablePartitionResponse.wire false v x) (ReassignablePartitionResponse45.of v x t0) :=
  Reads.congr (((Step.field (set := fun (t : ReassignablePartitionResponse45) x => { t with PartitionIndex := x }) (read_int32 (Fields.Valid.head (h) hv)))
      |>.andThen (Step.field (set := fun (t : ReassignablePartitionResponse45) x => { t with ErrorCode := x }) (read_int16 (Fields.Valid.head (Fields.Valid.tail h) hv)))
      |>.andThen (Step.field (set := fun (t : ReassignablePartitionResponse45) x => { t with ErrorMessage := x }) (read_string (Fields.Valid.head (Fields.Valid.tail (Fields.Valid.tail h)) hv))) : Step _ _ _) t0)
    (Writes.eq (fs := Protocol.ReassignablePartitionResponse) (v := v) (x := x) <| Writes.all hv rfl <| Writes.all hv rfl <| Writes.all hv rfl <| Writes.done).symm rfl

theorem ReassignablePartitionResponse45.parses {v : Int16} (hv : 0 ≤ v) (t0 : ReassignablePartitionResponse45) :
    Parses (ReassignablePartitionResponse45.decode v t0) ((Ty.struct Protocol.ReassignablePartitionResponse).parse v) (fun x => ReassignablePartitionResponse45.of v x t0) :=
  FParses.parses (fs := Protocol.ReassignablePartitionResponse)
    (FParses.field hv (set := fun (t : ReassignablePartitionResponse45) x => { t with PartitionIndex := x }) par_int32 <|
    FParses.field hv (set := fun (t : ReassignablePartitionResponse45) x => { t with ErrorCode := x }) par_int16 <|
    FParses.field hv (set := fun (t : ReassignablePartitionResponse45) x => { t with ErrorMessage := x }) par_string <|
    FParses.done)
    (by simp only [ReassignablePartitionResponse45.decode, Dec.andThen_assoc, Dec.andThen_nop]) (Fields.distinct_nodup _ (by decide +kernel)) (fun _ _ => rfl) t0

theorem ReassignablePartitionResponse45.shown {v : Int16} (hv : 0 ≤ v) (x : Val) (h : Protocol.ReassignablePartitionResponse.Typed v x) :
    Protocol.ReassignablePartitionResponse.shows v x (ReassignablePartitionResponse45.val (ReassignablePartitionResponse45.of v x {})) = true :=
  Shows.all hv (show_int32 (Fields.Typed.head (h) hv)) <|
    Shows.all hv (show_int16 (Fields.Typed.head (Fields.Typed.tail h) hv)) <|
    Shows.all hv (show_string (Fields.Typed.head (Fields.Typed.tail (Fields.Typed.tail h)) hv)) <|
    rfl

/-- `ReassignableTopicResponse45` as a value of the protocol. -/
def ReassignableTopicResponse45.val (t : ReassignableTopicResponse45) : Val :=
  .struct [("Name", .str (some t.Name)),
    ("Partitions", ofStructs ReassignablePartitionResponse45.val t.Partitions)]

theorem ReassignableTopicResponse45.conforms {v : Int16} (hv : 0 ≤ v) (t : ReassignableTopicResponse45) :
    Protocol.ReassignableTopicResponse.wire false v (ReassignableTopicResponse45.val t) = ReassignableTopicResponse45.wire v t :=
  Writes.eq <|
    Writes.all hv (Protocol.wire_string v t.Name) <|
    Writes.all hv (Protocol.wire_structs v (ReassignablePartitionResponse45.conforms hv) t.Partitions) <|
    Writes.done

/-- There is nothing that may not be nil. -/
def ReassignableTopicResponse45.Full (_v : Int16) (_t : ReassignableTopicResponse45) : Prop := True

theorem ReassignableTopicResponse45.valid {v : Int16} (hv : 0 ≤ v) (t : ReassignableTopicResponse45) (h : t.Fits v) (_hf : t.Full v) :
    Protocol.ReassignableTopicResponse.Valid true v (ReassignableTopicResponse45.val t) :=
  Valids.all (valid_string (h.Name)) <|
    Valids.all (valid_structs (fun y h hf => ReassignablePartitionResponse45.valid hv y h hf) (h.Partitions) (fun _ _ => trivial)) <|
    trivial

/-- What `ReassignableTopicResponse45` holds after reading the value `x` into `t0`. -/
def ReassignableTopicResponse45.of (v : Int16) (x : Val) (t0 : ReassignableTopicResponse45) : ReassignableTopicResponse45 :=
  { Name := (x.get "Name").toStr,
    Partitions := (x.get "Partitions").toSliceOr (fun y => ReassignablePartitionResponse45.of v y {}) t0.Partitions }

theorem ReassignableTopicResponse45.decodes {v : Int16} (hv : 0 ≤ v) (x : Val) (h : Protocol.ReassignableTopicResponse.Valid false v x) (t0 : ReassignableTopicResponse45) :
    Reads (ReassignableTopicResponse45.decode v t0) (Protocol.ReassignableTopicResponse.wire false v x) (ReassignableTopicResponse45.of v x t0) :=
  Reads.congr (((Step.field (set := fun (t : ReassignableTopicResponse45) x => { t with Name := x }) (read_string (Fields.Valid.head (h) hv)))
      |>.andThen (Step.readStructs (get := fun (t : ReassignableTopicResponse45) => t.Partitions) (set := fun (t : ReassignableTopicResponse45) x => { t with Partitions := x }) (fun y hy => ReassignablePartitionResponse45.decodes hv y hy {}) (Fields.Valid.head (Fields.Valid.tail h) hv)) : Step _ _ _) t0)
    (Writes.eq (fs := Protocol.ReassignableTopicResponse) (v := v) (x := x) <| Writes.all hv rfl <| Writes.all hv rfl <| Writes.done).symm rfl

theorem ReassignableTopicResponse45.parses {v : Int16} (hv : 0 ≤ v) (t0 : ReassignableTopicResponse45) :
    Parses (ReassignableTopicResponse45.decode v t0) ((Ty.struct Protocol.ReassignableTopicResponse).parse v) (fun x => ReassignableTopicResponse45.of v x t0) :=
  FParses.parses (fs := Protocol.ReassignableTopicResponse)
    (FParses.field hv (set := fun (t : ReassignableTopicResponse45) x => { t with Name := x }) par_string <|
    FParses.structs hv (get := fun (t : ReassignableTopicResponse45) => t.Partitions) (set := fun (t : ReassignableTopicResponse45) x => { t with Partitions := x }) (ReassignablePartitionResponse45.parses hv {}) <|
    FParses.done)
    (by simp only [ReassignableTopicResponse45.decode, Dec.andThen_nop]) (Fields.distinct_nodup _ (by decide +kernel)) (fun _ _ => rfl) t0

theorem ReassignableTopicResponse45.shown {v : Int16} (hv : 0 ≤ v) (x : Val) (h : Protocol.ReassignableTopicResponse.Typed v x) :
    Protocol.ReassignableTopicResponse.shows v x (ReassignableTopicResponse45.val (ReassignableTopicResponse45.of v x {})) = true :=
  Shows.all hv (show_string (Fields.Typed.head (h) hv)) <|
    Shows.all hv (show_structs (f := ReassignablePartitionResponse45.val) (g := fun y => ReassignablePartitionResponse45.of v y {}) (fun y hy => ReassignablePartitionResponse45.shown hv y hy) (Fields.Typed.head (Fields.Typed.tail h) hv)) <|
    rfl

/-- `AlterPartitionReassignmentsResponse` as a value of the protocol. -/
def AlterPartitionReassignmentsResponse.val (t : AlterPartitionReassignmentsResponse) : Val :=
  .struct [("ThrottleTimeMs", .int32 t.ThrottleTimeMs),
    ("ErrorCode", .int16 t.ErrorCode),
    ("ErrorMessage", .str (some t.ErrorMessage)),
    ("Responses", ofStructs ReassignableTopicResponse45.val t.Responses)]

theorem AlterPartitionReassignmentsResponse.conforms {v : Int16} (hv : 0 ≤ v) (t : AlterPartitionReassignmentsResponse) :
    Protocol.AlterPartitionReassignmentsResponse.wire false v (AlterPartitionReassignmentsResponse.val t) = AlterPartitionReassignmentsResponse.wire v t :=
  Writes.eq <|
    Writes.all hv (Protocol.wire_int32 v t.ThrottleTimeMs) <|
    Writes.all hv (Protocol.wire_int16 v t.ErrorCode) <|
    Writes.all hv (Protocol.wire_string v t.ErrorMessage) <|
    Writes.all hv (Protocol.wire_structs v (ReassignableTopicResponse45.conforms hv) t.Responses) <|
    Writes.done

/-- There is nothing that may not be nil. -/
def AlterPartitionReassignmentsResponse.Full (_v : Int16) (_t : AlterPartitionReassignmentsResponse) : Prop := True

theorem AlterPartitionReassignmentsResponse.valid {v : Int16} (hv : 0 ≤ v) (t : AlterPartitionReassignmentsResponse) (h : t.Fits v) (_hf : t.Full v) :
    Protocol.AlterPartitionReassignmentsResponse.Valid true v (AlterPartitionReassignmentsResponse.val t) :=
  Valids.all trivial <|
    Valids.all trivial <|
    Valids.all (valid_string (h.ErrorMessage)) <|
    Valids.all (valid_structs (fun y h hf => ReassignableTopicResponse45.valid hv y h hf) (h.Responses) (fun _ _ => trivial)) <|
    trivial

/-- What `AlterPartitionReassignmentsResponse` holds after reading the value `x` into `t0`. -/
def AlterPartitionReassignmentsResponse.of (v : Int16) (x : Val) (t0 : AlterPartitionReassignmentsResponse) : AlterPartitionReassignmentsResponse :=
  { ThrottleTimeMs := (x.get "ThrottleTimeMs").toInt32,
    ErrorCode := (x.get "ErrorCode").toInt16,
    ErrorMessage := (x.get "ErrorMessage").toStr,
    Responses := (x.get "Responses").toSliceOr (fun y => ReassignableTopicResponse45.of v y {}) t0.Responses }

theorem AlterPartitionReassignmentsResponse.decodes {v : Int16} (hv : 0 ≤ v) (x : Val) (h : Protocol.AlterPartitionReassignmentsResponse.Valid false v x) (t0 : AlterPartitionReassignmentsResponse) :
    Reads (AlterPartitionReassignmentsResponse.decode v t0) (Protocol.AlterPartitionReassignmentsResponse.wire false v x) (AlterPartitionReassignmentsResponse.of v x t0) :=
  Reads.congr (((Step.field (set := fun (t : AlterPartitionReassignmentsResponse) x => { t with ThrottleTimeMs := x }) (read_int32 (Fields.Valid.head (h) hv)))
      |>.andThen (Step.field (set := fun (t : AlterPartitionReassignmentsResponse) x => { t with ErrorCode := x }) (read_int16 (Fields.Valid.head (Fields.Valid.tail h) hv)))
      |>.andThen (Step.field (set := fun (t : AlterPartitionReassignmentsResponse) x => { t with ErrorMessage := x }) (read_string (Fields.Valid.head (Fields.Valid.tail (Fields.Valid.tail h)) hv)))
      |>.andThen (Step.readStructs (get := fun (t : AlterPartitionReassignmentsResponse) => t.Responses) (set := fun (t : AlterPartitionReassignmentsResponse) x => { t with Responses := x }) (fun y hy => ReassignableTopicResponse45.decodes hv y hy {}) (Fields.Valid.head (Fields.Valid.tail (Fields.Valid.tail (Fields.Valid.tail h))) hv)) : Step _ _ _) t0)
    (Writes.eq (fs := Protocol.AlterPartitionReassignmentsResponse) (v := v) (x := x) <| Writes.all hv rfl <| Writes.all hv rfl <| Writes.all hv rfl <| Writes.all hv rfl <| Writes.done).symm rfl

theorem AlterPartitionReassignmentsResponse.parses {v : Int16} (hv : 0 ≤ v) (t0 : AlterPartitionReassignmentsResponse) :
    Parses (AlterPartitionReassignmentsResponse.decode v t0) ((Ty.struct Protocol.AlterPartitionReassignmentsResponse).parse v) (fun x => AlterPartitionReassignmentsResponse.of v x t0) :=
  FParses.parses (fs := Protocol.AlterPartitionReassignmentsResponse)
    (FParses.field hv (set := fun (t : AlterPartitionReassignmentsResponse) x => { t with ThrottleTimeMs := x }) par_int32 <|
    FParses.field hv (set := fun (t : AlterPartitionReassignmentsResponse) x => { t with ErrorCode := x }) par_int16 <|
    FParses.field hv (set := fun (t : AlterPartitionReassignmentsResponse) x => { t with ErrorMessage := x }) par_string <|
    FParses.structs hv (get := fun (t : AlterPartitionReassignmentsResponse) => t.Responses) (set := fun (t : AlterPartitionReassignmentsResponse) x => { t with Responses := x }) (ReassignableTopicResponse45.parses hv {}) <|
    FParses.done)
    (by simp only [AlterPartitionReassignmentsResponse.decode, Dec.andThen_assoc, Dec.andThen_nop]) (Fields.distinct_nodup _ (by decide +kernel)) (fun _ _ => rfl) t0

theorem AlterPartitionReassignmentsResponse.shown {v : Int16} (hv : 0 ≤ v) (x : Val) (h : Protocol.AlterPartitionReassignmentsResponse.Typed v x) :
    Protocol.AlterPartitionReassignmentsResponse.shows v x (AlterPartitionReassignmentsResponse.val (AlterPartitionReassignmentsResponse.of v x {})) = true :=
  Shows.all hv (show_int32 (Fields.Typed.head (h) hv)) <|
    Shows.all hv (show_int16 (Fields.Typed.head (Fields.Typed.tail h) hv)) <|
    Shows.all hv (show_string (Fields.Typed.head (Fields.Typed.tail (Fields.Typed.tail h)) hv)) <|
    Shows.all hv (show_structs (f := ReassignableTopicResponse45.val) (g := fun y => ReassignableTopicResponse45.of v y {}) (fun y hy => ReassignableTopicResponse45.shown hv y hy) (Fields.Typed.head (Fields.Typed.tail (Fields.Typed.tail (Fields.Typed.tail h))) hv)) <|
    rfl

end Kafka.Msg
