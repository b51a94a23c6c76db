import Verif.Protocol.ParseLemmas
import Verif.Gen.Spec.SaslHandshake
/-!
Generated by tools/gen_protocol.py: the SaslHandshake messages are written and read as the protocol says.
-/
namespace Kafka.Msg

open Protocol

/-- `SaslHandshakeRequest` as a value of the protocol. -/
def SaslHandshakeRequest.val (t : SaslHandshakeRequest) : Val :=
  .struct [("Mechanism", .str (some t.Mechanism))]

theorem SaslHandshakeRequest.conforms {v : Int16} (hv : 0 ≤ v) (t : SaslHandshakeRequest) :
    Protocol.SaslHandshakeRequest.wire false v (SaslHandshakeRequest.val t) = SaslHandshakeRequest.wire v t :=
  Writes.eq <|
    Writes.all hv (Protocol.wire_string v t.Mechanism) <|
    Writes.done

/-- There is nothing that may not be nil. -/
def SaslHandshakeRequest.Full (_v : Int16) (_t : SaslHandshakeRequest) : Prop := True

theorem SaslHandshakeRequest.valid {v : Int16} (_hv : 0 ≤ v) (t : SaslHandshakeRequest) (h : t.Fits v) (_hf : t.Full v) :
    Protocol.SaslHandshakeRequest.Valid true v (SaslHandshakeRequest.val t) :=
  Valids.all (valid_string (h.Mechanism)) <|
    trivial

/-- `SaslHandshakeResponse` as a value of the protocol. -/
def SaslHandshakeResponse.val (t : SaslHandshakeResponse) : Val :=
  .struct [("ErrorCode", .int16 t.ErrorCode),
    ("Mechanisms", ofScalars (fun s => .str (some s)) t.Mechanisms)]

theorem SaslHandshakeResponse.conforms {v : Int16} (hv : 0 ≤ v) (t : SaslHandshakeResponse) :
    Protocol.SaslHandshakeResponse.wire false v (SaslHandshakeResponse.val t) = SaslHandshakeResponse.wire v t :=
  Writes.eq <|
    Writes.all hv (Protocol.wire_int16 v t.ErrorCode) <|
    Writes.all hv (Protocol.wire_stringArray v t.Mechanisms) <|
    Writes.done

/-- No slice of scalars is nil where the protocol has no null. -/
structure SaslHandshakeResponse.Full (v : Int16) (t : SaslHandshakeResponse) : Prop where
  Mechanisms : t.Mechanisms.NotNil

theorem SaslHandshakeResponse.valid {v : Int16} (_hv : 0 ≤ v) (t : SaslHandshakeResponse) (h : t.Fits v) (hf : t.Full v) :
    Protocol.SaslHandshakeResponse.Valid true v (SaslHandshakeResponse.val t) :=
  Valids.all trivial <|
    Valids.all (valid_stringArray (h.Mechanisms) (.inr (hf.Mechanisms))) <|
    trivial

/-- What `SaslHandshakeResponse` holds after reading the value `x` into `t0`. -/
def SaslHandshakeResponse.of (_v : Int16) (x : Val) (_t0 : SaslHandshakeResponse) : SaslHandshakeResponse :=
  { ErrorCode := (x.get "ErrorCode").toInt16,
    Mechanisms := (x.get "Mechanisms").toSlice Val.toStr }

theorem SaslHandshakeResponse.decodes {v : Int16} (hv : 0 ≤ v) (x : Val) (h : Protocol.SaslHandshakeResponse.Valid false v x) (t0 : SaslHandshakeResponse) :
    Reads (SaslHandshakeResponse.decode v t0) (Protocol.SaslHandshakeResponse.wire false v x) (SaslHandshakeResponse.of v x t0) :=
  Reads.congr (((Step.field (set := fun (t : SaslHandshakeResponse) x => { t with ErrorCode := x }) (read_int16 (Fields.Valid.head (h) hv)))
      |>.andThen (Step.field (set := fun (t : SaslHandshakeResponse) x => { t with Mechanisms := x }) (read_stringArray (Fields.Valid.head (Fields.Valid.tail h) hv))) : Step _ _ _) t0)
    (Writes.eq (fs := Protocol.SaslHandshakeResponse) (v := v) (x := x) <| Writes.all hv rfl <| Writes.all hv rfl <| Writes.done).symm rfl

theorem SaslHandshakeResponse.parses {v : Int16} (hv : 0 ≤ v) (t0 : SaslHandshakeResponse) :
    Parses (SaslHandshakeResponse.decode v t0) ((Ty.struct Protocol.SaslHandshakeResponse).parse v) (fun x => SaslHandshakeResponse.of v x t0) :=
  FParses.parses (fs := Protocol.SaslHandshakeResponse)
    (FParses.field hv (set := fun (t : SaslHandshakeResponse) x => { t with ErrorCode := x }) par_int16 <|
    FParses.field hv (set := fun (t : SaslHandshakeResponse) x => { t with Mechanisms := x }) par_stringArray <|
    FParses.done)
    (by simp only [SaslHandshakeResponse.decode, Dec.andThen_nop]) (Fields.distinct_nodup _ (by decide +kernel)) (fun _ _ => rfl) t0

theorem SaslHandshakeResponse.shown {v : Int16} (hv : 0 ≤ v) (x : Val) (h : Protocol.SaslHandshakeResponse.Typed v x) :
    Protocol.SaslHandshakeResponse.shows v x (SaslHandshakeResponse.val (SaslHandshakeResponse.of v x {})) = true :=
  Shows.all hv (show_int16 (Fields.Typed.head (h) hv)) <|
    Shows.all hv (show_stringArray (Fields.Typed.head (Fields.Typed.tail h) hv)) <|
    rfl

end Kafka.Msg
