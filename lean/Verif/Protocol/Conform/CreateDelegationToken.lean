import Verif.Protocol.ParseLemmas
import Verif.Gen.Spec.CreateDelegationToken
/-!
Generated by tools/gen_protocol.py: the CreateDelegationToken messages are written and read as the protocol says.
-/
namespace Kafka.Msg

open Protocol

/-- `CreatableRenewers38` as a value of the protocol. -/
def CreatableRenewers38.val (t : CreatableRenewers38) : Val :=
  .struct [("PrincipalType", .str (some t.PrincipalType)),
    ("PrincipalName", .str (some t.PrincipalName))]

theorem CreatableRenewers38.conforms {v : Int16} (hv : 0 ≤ v) (t : CreatableRenewers38) :
    Protocol.CreatableRenewers.wire false v (CreatableRenewers38.val t) = CreatableRenewers38.wire v t :=
  Writes.eq <|
    Writes.all hv (Protocol.wire_string v t.PrincipalType) <|
    Writes.all hv (Protocol.wire_string v t.PrincipalName) <|
    Writes.done

/-- There is nothing that may not be nil. -/
def CreatableRenewers38.Full (_v : Int16) (_t : CreatableRenewers38) : Prop := True

theorem CreatableRenewers38.valid {v : Int16} (_hv : 0 ≤ v) (t : CreatableRenewers38) (h : t.Fits v) (_hf : t.Full v) :
    Protocol.CreatableRenewers.Valid true v (CreatableRenewers38.val t) :=
  Valids.all (valid_string (h.PrincipalType)) <|
    Valids.all (valid_string (h.PrincipalName)) <|
    trivial

/-- `CreateDelegationTokenRequest` as a value of the protocol. -/
def CreateDelegationTokenRequest.val (t : CreateDelegationTokenRequest) : Val :=
  .struct [("Renewers", ofStructs CreatableRenewers38.val t.Renewers),
    ("MaxLifetimeMs", .int64 t.MaxLifetimeMs)]

theorem CreateDelegationTokenRequest.conforms {v : Int16} (hv : 0 ≤ v) (t : CreateDelegationTokenRequest) :
    Protocol.CreateDelegationTokenRequest.wire false v (CreateDelegationTokenRequest.val t) = CreateDelegationTokenRequest.wire v t :=
  Writes.eq <|
    Writes.all hv (Protocol.wire_structs v (CreatableRenewers38.conforms hv) t.Renewers) <|
    Writes.all hv (Protocol.wire_int64 v t.MaxLifetimeMs) <|
    Writes.done

/-- There is nothing that may not be nil. -/
def CreateDelegationTokenRequest.Full (_v : Int16) (_t : CreateDelegationTokenRequest) : Prop := True

theorem CreateDelegationTokenRequest.valid {v : Int16} (hv : 0 ≤ v) (t : CreateDelegationTokenRequest) (h : t.Fits v) (_hf : t.Full v) :
    Protocol.CreateDelegationTokenRequest.Valid true v (CreateDelegationTokenRequest.val t) :=
  Valids.all (valid_structs (fun y h hf => CreatableRenewers38.valid hv y h hf) (h.Renewers) (fun _ _ => trivial)) <|
    Valids.all trivial <|
    trivial

/-- `CreateDelegationTokenResponse` as a value of the protocol. -/
def CreateDelegationTokenResponse.val (t : CreateDelegationTokenResponse) : Val :=
  .struct [("ErrorCode", .int16 t.ErrorCode),
    ("PrincipalType", .str (some t.PrincipalType)),
    ("PrincipalName", .str (some t.PrincipalName)),
    ("IssueTimestampMs", .int64 t.IssueTimestampMs),
    ("ExpiryTimestampMs", .int64 t.ExpiryTimestampMs),
    ("MaxTimestampMs", .int64 t.MaxTimestampMs),
    ("TokenId", .str (some t.TokenId)),
    ("Hmac", .bytes (some t.Hmac.elems)),
    ("ThrottleTimeMs", .int32 t.ThrottleTimeMs)]

theorem CreateDelegationTokenResponse.conforms {v : Int16} (hv : 0 ≤ v) (t : CreateDelegationTokenResponse) :
    Protocol.CreateDelegationTokenResponse.wire false v (CreateDelegationTokenResponse.val t) = CreateDelegationTokenResponse.wire v t :=
  Writes.eq <|
    Writes.all hv (Protocol.wire_int16 v t.ErrorCode) <|
    Writes.all hv (Protocol.wire_string v t.PrincipalType) <|
    Writes.all hv (Protocol.wire_string v t.PrincipalName) <|
    Writes.all hv (Protocol.wire_int64 v t.IssueTimestampMs) <|
    Writes.all hv (Protocol.wire_int64 v t.ExpiryTimestampMs) <|
    Writes.all hv (Protocol.wire_int64 v t.MaxTimestampMs) <|
    Writes.all hv (Protocol.wire_string v t.TokenId) <|
    Writes.all hv (Protocol.wire_bytes v t.Hmac) <|
    Writes.all hv (Protocol.wire_int32 v t.ThrottleTimeMs) <|
    Writes.done

/-- There is nothing that may not be nil. -/
def CreateDelegationTokenResponse.Full (_v : Int16) (_t : CreateDelegationTokenResponse) : Prop := True

theorem CreateDelegationTokenResponse.valid {v : Int16} (_hv : 0 ≤ v) (t : CreateDelegationTokenResponse) (h : t.Fits v) (_hf : t.Full v) :
    Protocol.CreateDelegationTokenResponse.Valid true v (CreateDelegationTokenResponse.val t) :=
  Valids.all trivial <|
    Valids.all (valid_string (h.PrincipalType)) <|
    Valids.all (valid_string (h.PrincipalName)) <|
    Valids.all trivial <|
    Valids.all trivial <|
    Valids.all trivial <|
    Valids.all (valid_string (h.TokenId)) <|
    Valids.all (valid_bytes (h.Hmac)) <|
    Valids.all trivial <|
    trivial

/-- What `CreateDelegationTokenResponse` holds after reading the value `x` into `t0`. -/
def CreateDelegationTokenResponse.of (_v : Int16) (x : Val) (_t0 : CreateDelegationTokenResponse) : CreateDelegationTokenResponse :=
  { ErrorCode := (x.get "ErrorCode").toInt16,
    PrincipalType := (x.get "PrincipalType").toStr,
    PrincipalName := (x.get "PrincipalName").toStr,
    IssueTimestampMs := (x.get "IssueTimestampMs").toInt64,
    ExpiryTimestampMs := (x.get "ExpiryTimestampMs").toInt64,
    MaxTimestampMs := (x.get "MaxTimestampMs").toInt64,
    TokenId := (x.get "TokenId").toStr,
    Hmac := (x.get "Hmac").toBytes,
    ThrottleTimeMs := (x.get "ThrottleTimeMs").toInt32 }

theorem CreateDelegationTokenResponse.decodes {v : Int16} (hv : 0 ≤ v) (x : Val) (h : Protocol.CreateDelegationTokenResponse.Valid false v x) (t0 : CreateDelegationTokenResponse) :
    Reads (CreateDelegationTokenResponse.decode v t0) (Protocol.CreateDelegationTokenResponse.wire false v x) (CreateDelegationTokenResponse.of v x t0) :=
  Reads.congr (((Step.field (set := fun (t : CreateDelegationTokenResponse) x => { t with ErrorCode := x }) (read_int16 (Fields.Valid.head (h) hv)))
      |>.andThen (Step.field (set := fun (t : CreateDelegationTokenResponse) x => { t with PrincipalType := x }) (read_string (Fields.Valid.head (Fields.Valid.tail h) hv)))
      |>.andThen (Step.field (set := fun (t : CreateDelegationTokenResponse) x => { t with PrincipalName := x }) (read_string (Fields.Valid.head (Fields.Valid.tail (Fields.Valid.tail h)) hv)))
      |>.andThen (Step.field (set := fun (t : CreateDelegationTokenResponse) x => { t with IssueTimestampMs := x }) (read_int64 (Fields.Valid.head (Fields.Valid.tail (Fields.Valid.tail (Fields.Valid.tail h))) hv)))
      |>.andThen (Step.field (set := fun (t : CreateDelegationTokenResponse) x => { t with ExpiryTimestampMs := x }) (read_int64 (Fields.Valid.head (Fields.Valid.tail (Fields.Valid.tail (Fields.Valid.tail (Fields.Valid.tail h)))) hv)))
      |>.andThen (Step.field (set := fun (t : CreateDelegationTokenResponse) x => { t with MaxTimestampMs := x }) (read_int64 (Fields.Valid.head (Fields.Valid.tail (Fields.Valid.tail (Fields.Valid.tail (Fields.Valid.tail (Fields.Valid.tail h))))) hv)))
      |>.andThen (Step.field (set := fun (t : CreateDelegationTokenResponse) x => { t with TokenId := x }) (read_string (Fields.Valid.head (Fields.Valid.tail (Fields.Valid.tail (Fields.Valid.tail (Fields.Valid.tail (Fields.Valid.tail (Fields.Valid.tail h)))))) hv)))
      |>.andThen (Step.field (set := fun (t : CreateDelegationTokenResponse) x => { t with Hmac := x }) (read_bytes (Fields.Valid.head (Fields.Valid.tail (Fields.Valid.tail (Fields.Valid.tail (Fields.Valid.tail (Fields.Valid.tail (Fields.Valid.tail (Fields.Valid.tail h))))))) hv)))
      |>.andThen (Step.field (set := fun (t : CreateDelegationTokenResponse) x => { t with ThrottleTimeMs := x }) (read_int32 (Fields.Valid.head (Fields.Valid.tail (Fields.Valid.tail (Fields.Valid.tail (Fields.Valid.tail (Fields.Valid.tail (Fields.Valid.tail (Fields.Valid.tail (Fields.Valid.tail h)))))))) hv))) : Step _ _ _) t0)
    (Writes.eq (fs := Protocol.CreateDelegationTokenResponse) (v := v) (x := x) <| Writes.all hv rfl <| Writes.all hv rfl <| Writes.all hv rfl <| Writes.all hv rfl <| Writes.all hv rfl <| Writes.all hv rfl <| Writes.all hv rfl <| Writes.all hv rfl <| Writes.all hv rfl <| Writes.done).symm rfl

theorem CreateDelegationTokenResponse.parses {v : Int16} (hv : 0 ≤ v) (t0 : CreateDelegationTokenResponse) :
    Parses (CreateDelegationTokenResponse.decode v t0) ((Ty.struct Protocol.CreateDelegationTokenResponse).parse v) (fun x => CreateDelegationTokenResponse.of v x t0) :=
  FParses.parses (fs := Protocol.CreateDelegationTokenResponse)
    (FParses.field hv (set := fun (t : CreateDelegationTokenResponse) x => { t with ErrorCode := x }) par_int16 <|
    FParses.field hv (set := fun (t : CreateDelegationTokenResponse) x => { t with PrincipalType := x }) par_string <|
    FParses.field hv (set := fun (t : CreateDelegationTokenResponse) x => { t with PrincipalName := x }) par_string <|
    FParses.field hv (set := fun (t : CreateDelegationTokenResponse) x => { t with IssueTimestampMs := x }) par_int64 <|
    FParses.field hv (set := fun (t : CreateDelegationTokenResponse) x => { t with ExpiryTimestampMs := x }) par_int64 <|
    FParses.field hv (set := fun (t : CreateDelegationTokenResponse) x => { t with MaxTimestampMs := x }) par_int64 <|
    FParses.field hv (set := fun (t : CreateDelegationTokenResponse) x => { t with TokenId := x }) par_string <|
    FParses.field hv (set := fun (t : CreateDelegationTokenResponse) x => { t with Hmac := x }) par_bytes <|
    FParses.field hv (set := fun (t : CreateDelegationTokenResponse) x => { t with ThrottleTimeMs := x }) par_int32 <|
    FParses.done)
    (by simp only [CreateDelegationTokenResponse.decode, Dec.andThen_assoc, Dec.andThen_nop]) (Fields.distinct_nodup _ (by decide +kernel)) (fun _ _ => rfl) t0

theorem CreateDelegationTokenResponse.shown {v : Int16} (hv : 0 ≤ v) (x : Val) (h : Protocol.CreateDelegationTokenResponse.Typed v x) :
    Protocol.CreateDelegationTokenResponse.shows v x (CreateDelegationTokenResponse.val (CreateDelegationTokenResponse.of v x {})) = true :=
  Shows.all hv (show_int16 (Fields.Typed.head (h) hv)) <|
    Shows.all hv (show_string (Fields.Typed.head (Fields.Typed.tail h) hv)) <|
    Shows.all hv (show_string (Fields.Typed.head (Fields.Typed.tail (Fields.Typed.tail h)) hv)) <|
    Shows.all hv (show_int64 (Fields.Typed.head (Fields.Typed.tail (Fields.Typed.tail (Fields.Typed.tail h))) hv)) <|
    Shows.all hv (show_int64 (Fields.Typed.head (Fields.Typed.tail (Fields.Typed.tail (Fields.Typed.tail (Fields.Typed.tail h)))) hv)) <|
    Shows.all hv (show_int64 (Fields.Typed.head (Fields.Typed.tail (Fields.Typed.tail (Fields.Typed.tail (Fields.Typed.tail (Fields.Typed.tail h))))) hv)) <|
    Shows.all hv (show_string (Fields.Typed.head (Fields.Typed.tail (Fields.Typed.tail (Fields.Typed.tail (Fields.Typed.tail (Fields.Typed.tail (Fields.Typed.tail h)))))) hv)) <|
    Shows.all hv (show_bytes (Fields.Typed.head (Fields.Typed.tail (Fields.Typed.tail (Fields.Typed.tail (Fields.Typed.tail (Fields.Typed.tail (Fields.Typed.tail (Fields.Typed.tail h))))))) hv)) <|
    Shows.all hv (show_int32 (Fields.Typed.head (Fields.Typed.tail (Fields.Typed.tail (Fields.Typed.tail (Fields.Typed.tail (Fields.Typed.tail (Fields.Typed.tail (Fields.Typed.tail (Fields.Typed.tail h)))))))) hv)) <|
    rfl

end Kafka.Msg
