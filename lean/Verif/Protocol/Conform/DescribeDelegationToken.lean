import Verif.Protocol.ParseLemmas
import Verif.Gen.Spec.DescribeDelegationToken
/-!
Generated by tools/gen_protocol.py: the DescribeDelegationToken messages are written and read as the protocol says.
-/
namespace Kafka.Msg

open Protocol

/-- `DescribeDelegationTokenOwner41` as a value of the protocol. -/
def DescribeDelegationTokenOwner41.val (t : DescribeDelegationTokenOwner41) : Val :=
  .struct [("PrincipalType", .str (some t.PrincipalType)),
    ("PrincipalName", .str (some t.PrincipalName))]

theorem DescribeDelegationTokenOwner41.conforms {v : Int16} (hv : 0 ≤ v) (t : DescribeDelegationTokenOwner41) :
    Protocol.DescribeDelegationTokenOwner.wire false v (DescribeDelegationTokenOwner41.val t) = DescribeDelegationTokenOwner41.wire v t :=
  Writes.eq <|
    Writes.all hv (Protocol.wire_string v t.PrincipalType) <|
    Writes.all hv (Protocol.wire_string v t.PrincipalName) <|
    Writes.done

/-- There is nothing that may not be nil. -/
def DescribeDelegationTokenOwner41.Full (_v : Int16) (_t : DescribeDelegationTokenOwner41) : Prop := True

theorem DescribeDelegationTokenOwner41.valid {v : Int16} (_hv : 0 ≤ v) (t : DescribeDelegationTokenOwner41) (h : t.Fits v) (_hf : t.Full v) :
    Protocol.DescribeDelegationTokenOwner.Valid true v (DescribeDelegationTokenOwner41.val t) :=
  Valids.all (valid_string (h.PrincipalType)) <|
    Valids.all (valid_string (h.PrincipalName)) <|
    trivial

/-- `DescribeDelegationTokenRequest` as a value of the protocol. -/
def DescribeDelegationTokenRequest.val (t : DescribeDelegationTokenRequest) : Val :=
  .struct [("Owners", ofStructs DescribeDelegationTokenOwner41.val t.Owners)]

theorem DescribeDelegationTokenRequest.conforms {v : Int16} (hv : 0 ≤ v) (t : DescribeDelegationTokenRequest) :
    Protocol.DescribeDelegationTokenRequest.wire false v (DescribeDelegationTokenRequest.val t) = DescribeDelegationTokenRequest.wire v t :=
  Writes.eq <|
    Writes.all hv (Protocol.wire_structs v (DescribeDelegationTokenOwner41.conforms hv) t.Owners) <|
    Writes.done

/-- There is nothing that may not be nil. -/
def DescribeDelegationTokenRequest.Full (_v : Int16) (_t : DescribeDelegationTokenRequest) : Prop := True

theorem DescribeDelegationTokenRequest.valid {v : Int16} (hv : 0 ≤ v) (t : DescribeDelegationTokenRequest) (h : t.Fits v) (_hf : t.Full v) :
    Protocol.DescribeDelegationTokenRequest.Valid true v (DescribeDelegationTokenRequest.val t) :=
  Valids.all (valid_structs (fun y h hf => DescribeDelegationTokenOwner41.valid hv y h hf) (h.Owners) (fun _ _ => trivial)) <|
    trivial

/-- `DescribedDelegationTokenRenewer41` as a value of the protocol. -/
def DescribedDelegationTokenRenewer41.val (t : DescribedDelegationTokenRenewer41) : Val :=
  .struct [("PrincipalType", .str (some t.PrincipalType)),
    ("PrincipalName", .str (some t.PrincipalName))]

theorem DescribedDelegationTokenRenewer41.conforms {v : Int16} (hv : 0 ≤ v) (t : DescribedDelegationTokenRenewer41) :
    Protocol.DescribedDelegationTokenRenewer.wire false v (DescribedDelegationTokenRenewer41.val t) = DescribedDelegationTokenRenewer41.wire v t :=
  Writes.eq <|
    Writes.all hv (Protocol.wire_string v t.PrincipalType) <|
    Writes.all hv (Protocol.wire_string v t.PrincipalName) <|
    Writes.done

/-- There is nothing that may not be nil. -/
def DescribedDelegationTokenRenewer41.Full (_v : Int16) (_t : DescribedDelegationTokenRenewer41) : Prop := True

theorem DescribedDelegationTokenRenewer41.valid {v : Int16} (_hv : 0 ≤ v) (t : DescribedDelegationTokenRenewer41) (h : t.Fits v) (_hf : t.Full v) :
    Protocol.DescribedDelegationTokenRenewer.Valid true v (DescribedDelegationTokenRenewer41.val t) :=
  Valids.all (valid_string (h.PrincipalType)) <|
    Valids.all (valid_string (h.PrincipalName)) <|
    trivial

/-- What `DescribedDelegationTokenRenewer41` holds after reading the value `x` into `t0`. -/
def DescribedDelegationTokenRenewer41.of (_v : Int16) (x : Val) (_t0 : DescribedDelegationTokenRenewer41) : DescribedDelegationTokenRenewer41 :=
  { PrincipalType := (x.get "PrincipalType").toStr,
    PrincipalName := (x.get "PrincipalName").toStr }

theorem DescribedDelegationTokenRenewer41.decodes {v : Int16} (hv : 0 ≤ v) (x : Val) (h : Protocol.DescribedDelegationTokenRenewer.Valid false v x) (t0 : DescribedDelegationTokenRenewer41) :
    Reads (DescribedDelegationTokenRenewer41.decode v t0) (Protocol.DescribedDelegationTokenRenewer.wire false v x) (DescribedDelegationTokenRenewer41.of v x t0) :=
  Reads.congr (((Step.field (set := fun (t : DescribedDelegationTokenRenewer41) x => { t with PrincipalType := x }) (read_string (Fields.Valid.head (h) hv)))
      |>.andThen (Step.field (set := fun (t : DescribedDelegationTokenRenewer41) x => { t with PrincipalName := x }) (read_string (Fields.Valid.head (Fields.Valid.tail h) hv))) : Step _ _ _) t0)
    (Writes.eq (fs := Protocol.DescribedDelegationTokenRenewer) (v := v) (x := x) <| Writes.all hv rfl <| Writes.all hv rfl <| Writes.done).symm rfl

theorem DescribedDelegationTokenRenewer41.parses {v : Int16} (hv : 0 ≤ v) (t0 : DescribedDelegationTokenRenewer41) :
    Parses (DescribedDelegationTokenRenewer41.decode v t0) ((Ty.struct Protocol.DescribedDelegationTokenRenewer).parse v) (fun x => DescribedDelegationTokenRenewer41.of v x t0) :=
  FParses.parses (fs := Protocol.DescribedDelegationTokenRenewer)
    (FParses.field hv (set := fun (t : DescribedDelegationTokenRenewer41) x => { t with PrincipalType := x }) par_string <|
    FParses.field hv (set := fun (t : DescribedDelegationTokenRenewer41) x => { t with PrincipalName := x }) par_string <|
    FParses.done)
    (by simp only [DescribedDelegationTokenRenewer41.decode, Dec.andThen_nop]) (Fields.distinct_nodup _ (by decide +kernel)) (fun _ _ => rfl) t0

theorem DescribedDelegationTokenRenewer41.shown {v : Int16} (hv : 0 ≤ v) (x : Val) (h : Protocol.DescribedDelegationTokenRenewer.Typed v x) :
    Protocol.DescribedDelegationTokenRenewer.shows v x (DescribedDelegationTokenRenewer41.val (DescribedDelegationTokenRenewer41.of v x {})) = true :=
  Shows.all hv (show_string (Fields.Typed.head (h) hv)) <|
    Shows.all hv (show_string (Fields.Typed.head (Fields.Typed.tail h) hv)) <|
    rfl

/-- `DescribedDelegationToken41` as a value of the protocol. -/
def DescribedDelegationToken41.val (t : DescribedDelegationToken41) : Val :=
  .struct [("PrincipalType", .str (some t.PrincipalType)),
    ("PrincipalName", .str (some t.PrincipalName)),
    ("IssueTimestamp", .int64 t.IssueTimestamp),
    ("ExpiryTimestamp", .int64 t.ExpiryTimestamp),
    ("MaxTimestamp", .int64 t.MaxTimestamp),
    ("TokenId", .str (some t.TokenId)),
    ("Hmac", .bytes (some t.Hmac.elems)),
    ("Renewers", ofStructs DescribedDelegationTokenRenewer41.val t.Renewers)]

theorem DescribedDelegationToken41.conforms {v : Int16} (hv : 0 ≤ v) (t : DescribedDelegationToken41) :
    Protocol.DescribedDelegationToken.wire false v (DescribedDelegationToken41.val t) = DescribedDelegationToken41.wire v t :=
  Writes.eq <|
    Writes.all hv (Protocol.wire_string v t.PrincipalType) <|
    Writes.all hv (Protocol.wire_string v t.PrincipalName) <|
    Writes.all hv (Protocol.wire_int64 v t.IssueTimestamp) <|
    Writes.all hv (Protocol.wire_int64 v t.ExpiryTimestamp) <|
    Writes.all hv (Protocol.wire_int64 v t.MaxTimestamp) <|
    Writes.all hv (Protocol.wire_string v t.TokenId) <|
    Writes.all hv (Protocol.wire_bytes v t.Hmac) <|
    Writes.all hv (Protocol.wire_structs v (DescribedDelegationTokenRenewer41.conforms hv) t.Renewers) <|
    Writes.done

/-- There is nothing that may not be nil. -/
def DescribedDelegationToken41.Full (_v : Int16) (_t : DescribedDelegationToken41) : Prop := True

theorem DescribedDelegationToken41.valid {v : Int16} (hv : 0 ≤ v) (t : DescribedDelegationToken41) (h : t.Fits v) (_hf : t.Full v) :
    Protocol.DescribedDelegationToken.Valid true v (DescribedDelegationToken41.val t) :=
  Valids.all (valid_string (h.PrincipalType)) <|
    Valids.all (valid_string (h.PrincipalName)) <|
    Valids.all trivial <|
    Valids.all trivial <|
    Valids.all trivial <|
    Valids.all (valid_string (h.TokenId)) <|
    Valids.all (valid_bytes (h.Hmac)) <|
    Valids.all (valid_structs (fun y h hf => DescribedDelegationTokenRenewer41.valid hv y h hf) (h.Renewers) (fun _ _ => trivial)) <|
    trivial

/-- What `DescribedDelegationToken41` holds after reading the value `x` into `t0`. -/
def DescribedDelegationToken41.of (v : Int16) (x : Val) (t0 : DescribedDelegationToken41) : DescribedDelegationToken41 :=
  { PrincipalType := (x.get "PrincipalType").toStr,
    PrincipalName := (x.get "PrincipalName").toStr,
    IssueTimestamp := (x.get "IssueTimestamp").toInt64,
    ExpiryTimestamp := (x.get "ExpiryTimestamp").toInt64,
    MaxTimestamp := (x.get "MaxTimestamp").toInt64,
    TokenId := (x.get "TokenId").toStr,
    Hmac := (x.get "Hmac").toBytes,
    Renewers := (x.get "Renewers").toSliceOr (fun y => DescribedDelegationTokenRenewer41.of v y {}) t0.Renewers }

theorem DescribedDelegationToken41.decodes {v : Int16} (hv : 0 ≤ v) (x : Val) (h : Protocol.DescribedDelegationToken.Valid false v x) (t0 : DescribedDelegationToken41) :
    Reads (DescribedDelegationToken41.decode v t0) (Protocol.DescribedDelegationToken.wire false v x) (DescribedDelegationToken41.of v x t0) :=
  Reads.congr (((Step.field (set := fun (t : DescribedDelegationToken41) x => { t with PrincipalType := x }) (read_string (Fields.Valid.head (h) hv)))
      |>.andThen (Step.field (set := fun (t : DescribedDelegationToken41) x => { t with PrincipalName := x }) (read_string (Fields.Valid.head (Fields.Valid.tail h) hv)))
      |>.andThen (Step.field (set := fun (t : DescribedDelegationToken41) x => { t with IssueTimestamp := x }) (read_int64 (Fields.Valid.head (Fields.Valid.tail (Fields.Valid.tail h)) hv)))
      |>.andThen (Step.field (set := fun (t : DescribedDelegationToken41) x => { t with ExpiryTimestamp := x }) (read_int64 (Fields.Valid.head (Fields.Valid.tail (Fields.Valid.tail (Fields.Valid.tail h))) hv)))
      |>.andThen (Step.field (set := fun (t : DescribedDelegationToken41) x => { t with MaxTimestamp := x }) (read_int64 (Fields.Valid.head (Fields.Valid.tail (Fields.Valid.tail (Fields.Valid.tail (Fields.Valid.tail h)))) hv)))
      |>.andThen (Step.field (set := fun (t : DescribedDelegationToken41) x => { t with TokenId := x }) (read_string (Fields.Valid.head (Fields.Valid.tail (Fields.Valid.tail (Fields.Valid.tail (Fields.Valid.tail (Fields.Valid.tail h))))) hv)))
      |>.andThen (Step.field (set := fun (t : DescribedDelegationToken41) x => { t with Hmac := x }) (read_bytes (Fields.Valid.head (Fields.Valid.tail (Fields.Valid.tail (Fields.Valid.tail (Fields.Valid.tail (Fields.Valid.tail (Fields.Valid.tail h)))))) hv)))
      |>.andThen (Step.readStructs (get := fun (t : DescribedDelegationToken41) => t.Renewers) (set := fun (t : DescribedDelegationToken41) x => { t with Renewers := x }) (fun y hy => DescribedDelegationTokenRenewer41.decodes hv y hy {}) (Fields.Valid.head (Fields.Valid.tail (Fields.Valid.tail (Fields.Valid.tail (Fields.Valid.tail (Fields.Valid.tail (Fields.Valid.tail (Fields.Valid.tail h))))))) hv)) : Step _ _ _) t0)
    (Writes.eq (fs := Protocol.DescribedDelegationToken) (v := v) (x := x) <| Writes.all hv rfl <| Writes.all hv rfl <| Writes.all hv rfl <| Writes.all hv rfl <| Writes.all hv rfl <| Writes.all hv rfl <| Writes.all hv rfl <| Writes.all hv rfl <| Writes.done).symm rfl

theorem DescribedDelegationToken41.parses {v : Int16} (hv : 0 ≤ v) (t0 : DescribedDelegationToken41) :
    Parses (DescribedDelegationToken41.decode v t0) ((Ty.struct Protocol.DescribedDelegationToken).parse v) (fun x => DescribedDelegationToken41.of v x t0) :=
  FParses.parses (fs := Protocol.DescribedDelegationToken)
    (FParses.field hv (set := fun (t : DescribedDelegationToken41) x => { t with PrincipalType := x }) par_string <|
    FParses.field hv (set := fun (t : DescribedDelegationToken41) x => { t with PrincipalName := x }) par_string <|
    FParses.field hv (set := fun (t : DescribedDelegationToken41) x => { t with IssueTimestamp := x }) par_int64 <|
    FParses.field hv (set := fun (t : DescribedDelegationToken41) x => { t with ExpiryTimestamp := x }) par_int64 <|
    FParses.field hv (set := fun (t : DescribedDelegationToken41) x => { t with MaxTimestamp := x }) par_int64 <|
    FParses.field hv (set := fun (t : DescribedDelegationToken41) x => { t with TokenId := x }) par_string <|
    FParses.field hv (set := fun (t : DescribedDelegationToken41) x => { t with Hmac := x }) par_bytes <|
    FParses.structs hv (get := fun (t : DescribedDelegationToken41) => t.Renewers) (set := fun (t : DescribedDelegationToken41) x => { t with Renewers := x }) (DescribedDelegationTokenRenewer41.parses hv {}) <|
    FParses.done)
    (by simp only [DescribedDelegationToken41.decode, Dec.andThen_assoc, Dec.andThen_nop]) (Fields.distinct_nodup _ (by decide +kernel)) (fun _ _ => rfl) t0

theorem DescribedDelegationToken41.shown {v : Int16} (hv : 0 ≤ v) (x : Val) (h : Protocol.DescribedDelegationToken.Typed v x) :
    Protocol.DescribedDelegationToken.shows v x (DescribedDelegationToken41.val (DescribedDelegationToken41.of v x {})) = true :=
  Shows.all hv (show_string (Fields.Typed.head (h) hv)) <|
    Shows.all hv (show_string (Fields.Typed.head (Fields.Typed.tail h) hv)) <|
    Shows.all hv (show_int64 (Fields.Typed.head (Fields.Typed.tail (Fields.Typed.tail h)) hv)) <|
    Shows.all hv (show_int64 (Fields.Typed.head (Fields.Typed.tail (Fields.Typed.tail (Fields.Typed.tail h))) hv)) <|
    Shows.all hv (show_int64 (Fields.Typed.head (Fields.Typed.tail (Fields.Typed.tail (Fields.Typed.tail (Fields.Typed.tail h)))) hv)) <|
    Shows.all hv (show_string (Fields.Typed.head (Fields.Typed.tail (Fields.Typed.tail (Fields.Typed.tail (Fields.Typed.tail (Fields.Typed.tail h))))) hv)) <|
    Shows.all hv (show_bytes (Fields.Typed.head (Fields.Typed.tail (Fields.Typed.tail (Fields.Typed.tail (Fields.Typed.tail (Fields.Typed.tail (Fields.Typed.tail h)))))) hv)) <|
    Shows.all hv (show_structs (f := DescribedDelegationTokenRenewer41.val) (g := fun y => DescribedDelegationTokenRenewer41.of v y {}) (fun y hy => DescribedDelegationTokenRenewer41.shown hv y hy) (Fields.Typed.head (Fields.Typed.tail (Fields.Typed.tail (Fields.Typed.tail (Fields.Typed.tail (Fields.Typed.tail (Fields.Typed.tail (Fields.Typed.tail h))))))) hv)) <|
    rfl

/-- `DescribeDelegationTokenResponse` as a value of the protocol. -/
def DescribeDelegationTokenResponse.val (t : DescribeDelegationTokenResponse) : Val :=
  .struct [("ErrorCode", .int16 t.ErrorCode),
    ("Tokens", ofStructs DescribedDelegationToken41.val t.Tokens),
    ("ThrottleTimeMs", .int32 t.ThrottleTimeMs)]

theorem DescribeDelegationTokenResponse.conforms {v : Int16} (hv : 0 ≤ v) (t : DescribeDelegationTokenResponse) :
    Protocol.DescribeDelegationTokenResponse.wire false v (DescribeDelegationTokenResponse.val t) = DescribeDelegationTokenResponse.wire v t :=
  Writes.eq <|
    Writes.all hv (Protocol.wire_int16 v t.ErrorCode) <|
    Writes.all hv (Protocol.wire_structs v (DescribedDelegationToken41.conforms hv) t.Tokens) <|
    Writes.all hv (Protocol.wire_int32 v t.ThrottleTimeMs) <|
    Writes.done

/-- There is nothing that may not be nil. -/
def DescribeDelegationTokenResponse.Full (_v : Int16) (_t : DescribeDelegationTokenResponse) : Prop := True

theorem DescribeDelegationTokenResponse.valid {v : Int16} (hv : 0 ≤ v) (t : DescribeDelegationTokenResponse) (h : t.Fits v) (_hf : t.Full v) :
    Protocol.DescribeDelegationTokenResponse.Valid true v (DescribeDelegationTokenResponse.val t) :=
  Valids.all trivial <|
    Valids.all (valid_structs (fun y h hf => DescribedDelegationToken41.valid hv y h hf) (h.Tokens) (fun _ _ => trivial)) <|
    Valids.all trivial <|
    trivial

/-- What `DescribeDelegationTokenResponse` holds after reading the value `x` into `t0`. -/
def DescribeDelegationTokenResponse.of (v : Int16) (x : Val) (t0 : DescribeDelegationTokenResponse) : DescribeDelegationTokenResponse :=
  { ErrorCode := (x.get "ErrorCode").toInt16,
    Tokens := (x.get "Tokens").toSliceOr (fun y => DescribedDelegationToken41.of v y {}) t0.Tokens,
    ThrottleTimeMs := (x.get "ThrottleTimeMs").toInt32 }

theorem DescribeDelegationTokenResponse.decodes {v : Int16} (hv : 0 ≤ v) (x : Val) (h : Protocol.DescribeDelegationTokenResponse.Valid false v x) (t0 : DescribeDelegationTokenResponse) :
    Reads (DescribeDelegationTokenResponse.decode v t0) (Protocol.DescribeDelegationTokenResponse.wire false v x) (DescribeDelegationTokenResponse.of v x t0) :=
  Reads.congr (((Step.field (set := fun (t : DescribeDelegationTokenResponse) x => { t with ErrorCode := x }) (read_int16 (Fields.Valid.head (h) hv)))
      |>.andThen (Step.readStructs (get := fun (t : DescribeDelegationTokenResponse) => t.Tokens) (set := fun (t : DescribeDelegationTokenResponse) x => { t with Tokens := x }) (fun y hy => DescribedDelegationToken41.decodes hv y hy {}) (Fields.Valid.head (Fields.Valid.tail h) hv))
      |>.andThen (Step.field (set := fun (t : DescribeDelegationTokenResponse) x => { t with ThrottleTimeMs := x }) (read_int32 (Fields.Valid.head (Fields.Valid.tail (Fields.Valid.tail h)) hv))) : Step _ _ _) t0)
    (Writes.eq (fs := Protocol.DescribeDelegationTokenResponse) (v := v) (x := x) <| Writes.all hv rfl <| Writes.all hv rfl <| Writes.all hv rfl <| Writes.done).symm rfl

theorem DescribeDelegationTokenResponse.parses {v : Int16} (hv : 0 ≤ v) (t0 : DescribeDelegationTokenResponse) :
    Parses (DescribeDelegationTokenResponse.decode v t0) ((Ty.struct Protocol.DescribeDelegationTokenResponse).parse v) (fun x => DescribeDelegationTokenResponse.of v x t0) :=
  FParses.parses (fs := Protocol.DescribeDelegationTokenResponse)
    (FParses.field hv (set := fun (t : DescribeDelegationTokenResponse) x => { t with ErrorCode := x }) par_int16 <|
    FParses.structs hv (get := fun (t : DescribeDelegationTokenResponse) => t.Tokens) (set := fun (t : DescribeDelegationTokenResponse) x => { t with Tokens := x }) (DescribedDelegationToken41.parses hv {}) <|
    FParses.field hv (set := fun (t : DescribeDelegationTokenResponse) x => { t with ThrottleTimeMs := x }) par_int32 <|
    FParses.done)
    (by simp only [DescribeDelegationTokenResponse.decode, Dec.andThen_assoc, Dec.andThen_nop]) (Fields.distinct_nodup _ (by decide +kernel)) (fun _ _ => rfl) t0

theorem DescribeDelegationTokenResponse.shown {v : Int16} (hv : 0 ≤ v) (x : Val) (h : Protocol.DescribeDelegationTokenResponse.Typed v x) :
    Protocol.DescribeDelegationTokenResponse.shows v x (DescribeDelegationTokenResponse.val (DescribeDelegationTokenResponse.of v x {})) = true :=
  Shows.all hv (show_int16 (Fields.Typed.head (h) hv)) <|
    Shows.all hv (show_structs (f := DescribedDelegationToken41.val) (g := fun y => DescribedDelegationToken41.of v y {}) (fun y hy => DescribedDelegationToken41.shown hv y hy) (Fields.Typed.head (Fields.Typed.tail h) hv)) <|
    Shows.all hv (show_int32 (Fields.Typed.head (Fields.Typed.tail (Fields.Typed.tail h)) hv)) <|
    rfl

end Kafka.Msg
