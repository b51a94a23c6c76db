import Verif.Protocol.ParseLemmas
import Verif.Gen.Spec.DeleteTopics
/-!
Generated by tools/gen_protocol.py: the DeleteTopics messages are written and read as the protocol says.
-/
namespace Kafka.Msg

open Protocol

/-- `DeleteTopicsRequest` as a value of the protocol. -/
def DeleteTopicsRequest.val (t : DeleteTopicsRequest) : Val :=
  .struct [("TopicNames", ofScalars (fun s => .str (some s)) t.TopicNames),
    ("TimeoutMs", .int32 t.TimeoutMs)]

theorem DeleteTopicsRequest.conforms {v : Int16} (hv : 0 ≤ v) (t : DeleteTopicsRequest) :
    Protocol.DeleteTopicsRequest.wire false v (DeleteTopicsRequest.val t) = DeleteTopicsRequest.wire v t :=
  Writes.eq <|
    Writes.all hv (Protocol.wire_stringArray v t.TopicNames) <|
    Writes.all hv (Protocol.wire_int32 v t.TimeoutMs) <|
    Writes.done

/-- No slice of scalars is nil where the protocol has no null. -/
structure DeleteTopicsRequest.Full (v : Int16) (t : DeleteTopicsRequest) : Prop where
  TopicNames : t.TopicNames.NotNil

theorem DeleteTopicsRequest.valid {v : Int16} (_hv : 0 ≤ v) (t : DeleteTopicsRequest) (h : t.Fits v) (hf : t.Full v) :
    Protocol.DeleteTopicsRequest.Valid true v (DeleteTopicsRequest.val t) :=
  Valids.all (valid_stringArray (h.TopicNames) (.inr (hf.TopicNames))) <|
    Valids.all trivial <|
    trivial

/-- `DeletableTopicResult20` as a value of the protocol. -/
def DeletableTopicResult20.val (t : DeletableTopicResult20) : Val :=
  .struct [("Name", .str (some t.Name)),
    ("ErrorCode", .int16 t.ErrorCode)]

theorem DeletableTopicResult20.conforms {v : Int16} (hv : 0 ≤ v) (t : DeletableTopicResult20) :
    Protocol.DeletableTopicResult.wire false v (DeletableTopicResult20.val t) = DeletableTopicResult20.wire v t :=
  Writes.eq <|
    Writes.all hv (Protocol.wire_string v t.Name) <|
    Writes.all hv (Protocol.wire_int16 v t.ErrorCode) <|
    Writes.done

/-- There is nothing that may not be nil. -/
def DeletableTopicResult20.Full (_v : Int16) (_t : DeletableTopicResult20) : Prop := True

theorem DeletableTopicResult20.valid {v : Int16} (_hv : 0 ≤ v) (t : DeletableTopicResult20) (h : t.Fits v) (_hf : t.Full v) :
    Protocol.DeletableTopicResult.Valid true v (DeletableTopicResult20.val t) :=
  Valids.all (valid_string (h.Name)) <|
    Valids.all trivial <|
    trivial

/-- What `DeletableTopicResult20` holds after reading the value `x` into `t0`. -/
def DeletableTopicResult20.of (_v : Int16) (x : Val) (_t0 : DeletableTopicResult20) : DeletableTopicResult20 :=
  { Name := (x.get "Name").toStr,
    ErrorCode := (x.get "ErrorCode").toInt16 }

theorem DeletableTopicResult20.decodes {v : Int16} (hv : 0 ≤ v) (x : Val) (h : Protocol.DeletableTopicResult.Valid false v x) (t0 : DeletableTopicResult20) :
    Reads (DeletableTopicResult20.decode v t0) (Protocol.DeletableTopicResult.wire false v x) (DeletableTopicResult20.of v x t0) :=
  Reads.congr (((Step.field (set := fun (t : DeletableTopicResult20) x => { t with Name := x }) (read_string (Fields.Valid.head (h) hv)))
      |>.andThen (Step.field (set := fun (t : DeletableTopicResult20) x => { t with ErrorCode := x }) (read_int16 (Fields.Valid.head (Fields.Valid.tail h) hv))) : Step _ _ _) t0)
    (Writes.eq (fs := Protocol.DeletableTopicResult) (v := v) (x := x) <| Writes.all hv rfl <| Writes.all hv rfl <| Writes.done).symm rfl

theorem DeletableTopicResult20.parses {v : Int16} (hv : 0 ≤ v) (t0 : DeletableTopicResult20) :
    Parses (DeletableTopicResult20.decode v t0) ((Ty.struct Protocol.DeletableTopicResult).parse v) (fun x => DeletableTopicResult20.of v x t0) :=
  FParses.parses (fs := Protocol.DeletableTopicResult)
    (FParses.field hv (set := fun (t : DeletableTopicResult20) x => { t with Name := x }) par_string <|
    FParses.field hv (set := fun (t : DeletableTopicResult20) x => { t with ErrorCode := x }) par_int16 <|
    FParses.done)
    (by simp only [DeletableTopicResult20.decode, Dec.andThen_nop]) (Fields.distinct_nodup _ (by decide +kernel)) (fun _ _ => rfl) t0

theorem DeletableTopicResult20.shown {v : Int16} (hv : 0 ≤ v) (x : Val) (h : Protocol.DeletableTopicResult.Typed v x) :
    Protocol.DeletableTopicResult.shows v x (DeletableTopicResult20.val (DeletableTopicResult20.of v x {})) = true :=
  Shows.all hv (show_string (Fields.Typed.head (h) hv)) <|
    Shows.all hv (show_int16 (Fields.Typed.head (Fields.Typed.tail h) hv)) <|
    rfl

/-- `DeleteTopicsResponse` as a value of the protocol. -/
def DeleteTopicsResponse.val (t : DeleteTopicsResponse) : Val :=
  .struct [("ThrottleTimeMs", .int32 t.ThrottleTimeMs),
    ("Responses", ofStructs DeletableTopicResult20.val t.Responses)]

theorem DeleteTopicsResponse.conforms {v : Int16} (hv : 0 ≤ v) (t : DeleteTopicsResponse) :
    Protocol.DeleteTopicsResponse.wire false v (DeleteTopicsResponse.val t) = DeleteTopicsResponse.wire v t :=
  Writes.eq <|
    Writes.since (Protocol.wire_int32 v t.ThrottleTimeMs) <|
    Writes.all hv (Protocol.wire_structs v (DeletableTopicResult20.conforms hv) t.Responses) <|
    Writes.done

/-- There is nothing that may not be nil. -/
def DeleteTopicsResponse.Full (_v : Int16) (_t : DeleteTopicsResponse) : Prop := True

theorem DeleteTopicsResponse.valid {v : Int16} (hv : 0 ≤ v) (t : DeleteTopicsResponse) (h : t.Fits v) (_hf : t.Full v) :
    Protocol.DeleteTopicsResponse.Valid true v (DeleteTopicsResponse.val t) :=
  Valids.since (fun _ => trivial) <|
    Valids.all (valid_structs (fun y h hf => DeletableTopicResult20.valid hv y h hf) (h.Responses) (fun _ _ => trivial)) <|
    trivial

/-- What `DeleteTopicsResponse` holds after reading the value `x` into `t0`. -/
def DeleteTopicsResponse.of (v : Int16) (x : Val) (t0 : DeleteTopicsResponse) : DeleteTopicsResponse :=
  { ThrottleTimeMs := if v ≥ 1 then (x.get "ThrottleTimeMs").toInt32 else t0.ThrottleTimeMs,
    Responses := (x.get "Responses").toSliceOr (fun y => DeletableTopicResult20.of v y {}) t0.Responses }

theorem DeleteTopicsResponse.decodes {v : Int16} (hv : 0 ≤ v) (x : Val) (h : Protocol.DeleteTopicsResponse.Valid false v x) (t0 : DeleteTopicsResponse) :
    Reads (DeleteTopicsResponse.decode v t0) (Protocol.DeleteTopicsResponse.wire false v x) (DeleteTopicsResponse.of v x t0) :=
  Reads.congr (((Step.optField (c := v ≥ 1) (set := fun (t : DeleteTopicsResponse) x => { t with ThrottleTimeMs := x }) (·.ThrottleTimeMs) (fun _ => rfl) fun hc => read_int32 (Fields.Valid.head (h) hc))
      |>.andThen (Step.readStructs (get := fun (t : DeleteTopicsResponse) => t.Responses) (set := fun (t : DeleteTopicsResponse) x => { t with Responses := x }) (fun y hy => DeletableTopicResult20.decodes hv y hy {}) (Fields.Valid.head (Fields.Valid.tail h) hv)) : Step _ _ _) t0)
    (Writes.eq (fs := Protocol.DeleteTopicsResponse) (v := v) (x := x) <| Writes.since rfl <| Writes.all hv rfl <| Writes.done).symm rfl

theorem DeleteTopicsResponse.parses {v : Int16} (hv : 0 ≤ v) (t0 : DeleteTopicsResponse) :
    Parses (DeleteTopicsResponse.decode v t0) ((Ty.struct Protocol.DeleteTopicsResponse).parse v) (fun x => DeleteTopicsResponse.of v x t0) :=
  FParses.parses (fs := Protocol.DeleteTopicsResponse)
    (FParses.optField (c := v ≥ 1) Iff.rfl (set := fun (t : DeleteTopicsResponse) x => { t with ThrottleTimeMs := x }) (·.ThrottleTimeMs) (fun _ => rfl) par_int32 <|
    FParses.structs hv (get := fun (t : DeleteTopicsResponse) => t.Responses) (set := fun (t : DeleteTopicsResponse) x => { t with Responses := x }) (DeletableTopicResult20.parses hv {}) <|
    FParses.done)
    (by simp only [DeleteTopicsResponse.decode, Dec.andThen_nop]) (Fields.distinct_nodup _ (by decide +kernel)) (fun _ _ => rfl) t0

theorem DeleteTopicsResponse.shown {v : Int16} (hv : 0 ≤ v) (x : Val) (h : Protocol.DeleteTopicsResponse.Typed v x) :
    Protocol.DeleteTopicsResponse.shows v x (DeleteTopicsResponse.val (DeleteTopicsResponse.of v x {})) = true :=
  Shows.since (.int32) rfl (fun hc => show_int32 (Fields.Typed.head (h) hc)) rfl <|
    Shows.all hv (show_structs (f := DeletableTopicResult20.val) (g := fun y => DeletableTopicResult20.of v y {}) (fun y hy => DeletableTopicResult20.shown hv y hy) (Fields.Typed.head (Fields.Typed.tail h) hv)) <|
    rfl

end Kafka.Msg
