import Verif.Message.KeptLemmas
import Verif.Gen.Proof.CreateDelegationToken
/-!
Generated by tools/gen_messages.py: what is in the CreateDelegationToken messages after an error.
-/
set_option linter.unusedVariables false
namespace Kafka.Msg

/-- message/messages.gen.go:9975-9986 `CreatableRenewers38.Decode`, with the receiver kept -/
def CreatableRenewers38.decodeK (_version : Int16) : KDec CreatableRenewers38 :=
    KDec.field Dec.string [] (fun t x => { t with PrincipalType := x }) ;|>
    KDec.field Dec.string [] (fun t x => { t with PrincipalName := x })

/-- Where the fields of `CreatableRenewers38` end. -/
def CreatableRenewers38.ends (_version : Int16) (t : CreatableRenewers38) : Nat → Nat :=
  Cut.ends 0 [Wire.string t.PrincipalType,
    Wire.string t.PrincipalName]

/-- What is left of `t` if only its first `n` bytes are there. -/
def CreatableRenewers38.cut (version : Int16) (n : Nat) (t : CreatableRenewers38) : CreatableRenewers38 :=
  { PrincipalType := Cut.field n (t.ends version 0) t.PrincipalType [],
    PrincipalName := Cut.field n (t.ends version 1) t.PrincipalName [] }

/-- The same after the first `k` statements of `Decode`. -/
def CreatableRenewers38.cutAt (version : Int16) (t : CreatableRenewers38) (k n : Nat) : CreatableRenewers38 :=
  { PrincipalType := upto k 0 (Cut.field n (t.ends version 0) t.PrincipalType []) [],
    PrincipalName := upto k 1 (Cut.field n (t.ends version 1) t.PrincipalName []) [] }

/-- The first `k` fields of `y`, and zeros. -/
def CreatableRenewers38.first (k : Nat) (y : CreatableRenewers38) : CreatableRenewers38 :=
  { PrincipalType := upto k 0 y.PrincipalType [],
    PrincipalName := upto k 1 y.PrincipalName [] }

/-- `r` is a beginning of `y`, and zeros. -/
def CreatableRenewers38.Part (r y : CreatableRenewers38) : Prop :=
  (∃ k, k < 2 ∧ r = y.first k)

/-- `CreatableRenewers38` with its receiver kept. -/
def CreatableRenewers38.keeps : KeptMsg CreatableRenewers38.type := { decode := CreatableRenewers38.decodeK, cut := CreatableRenewers38.cut, Part := CreatableRenewers38.Part }

theorem CreatableRenewers38.sameK (version : Int16) : KStep (CreatableRenewers38.decodeK version) (CreatableRenewers38.decode version) :=
  (KStep.field)
    |>.andThen (KStep.field)
theorem CreatableRenewers38.cutsK (version : Int16) (t : CreatableRenewers38) (h : t.Fits version) :
    Cuts (CreatableRenewers38.decodeK version) 0 (CreatableRenewers38.wire version t) (CreatableRenewers38.ends version t 1) (CreatableRenewers38.cutAt version t 0) (CreatableRenewers38.cutAt version t 2) :=
  (.field (reads_string h.PrincipalType) (fun _ => rfl) (fun _ => rfl) : Cuts _ 0 _ (CreatableRenewers38.ends version t 0) (CreatableRenewers38.cutAt version t 0) (CreatableRenewers38.cutAt version t 1))
    |>.andThen (.field (reads_string h.PrincipalName) (fun _ => rfl) (fun _ => rfl) : Cuts _ (CreatableRenewers38.ends version t 0) _ (CreatableRenewers38.ends version t 1) (CreatableRenewers38.cutAt version t 1) (CreatableRenewers38.cutAt version t 2))
theorem CreatableRenewers38.partsK (version : Int16) : Parts (CreatableRenewers38.decodeK version) (CreatableRenewers38.first 0) (CreatableRenewers38.first 2) (fun r y => ((r = CreatableRenewers38.first 0 y) ∨ (r = CreatableRenewers38.first 1 y))) :=
  (.field Longer.string (fun _ => rfl) (fun _ _ => rfl) (fun _ _ => rfl) (fun _ => rfl) : Parts (KDec.field Dec.string [] (fun t x => { t with PrincipalType := x })) (CreatableRenewers38.first 0) (CreatableRenewers38.first 1) (fun r y => r = CreatableRenewers38.first 0 y))
    |>.andThen (.field Longer.string (fun _ => rfl) (fun _ _ => rfl) (fun _ _ => rfl) (fun _ => rfl) : Parts (KDec.field Dec.string [] (fun t x => { t with PrincipalName := x })) (CreatableRenewers38.first 1) (CreatableRenewers38.first 2) (fun r y => r = CreatableRenewers38.first 1 y))
theorem CreatableRenewers38.filled (version : Int16) : FilledStep 4 32772 (CreatableRenewers38.decode version) :=
  ((FilledStep.field .string)
    |>.andThen (FilledStep.field .string)).mono (by decide) (by decide)
theorem CreatableRenewers38.part_of (r y : CreatableRenewers38) (h : ((r = CreatableRenewers38.first 0 y) ∨ (r = CreatableRenewers38.first 1 y))) : CreatableRenewers38.Part r y :=
  match h with
    | (.inl h) => ⟨0, by decide, h⟩
    | (.inr h) => ⟨1, by decide, h⟩
theorem CreatableRenewers38.keeps_holds : CreatableRenewers38.keeps.Holds CreatableRenewers38.layout :=
  KeptMsg.holds CreatableRenewers38.lawful CreatableRenewers38.sameK (stop := fun v t => CreatableRenewers38.ends v t 1) (c := fun v t => CreatableRenewers38.cutAt v t 0) (fun _ _ _ => rfl) CreatableRenewers38.cutsK (c0 := CreatableRenewers38.first 0) rfl CreatableRenewers38.partsK CreatableRenewers38.part_of CreatableRenewers38.filled (by decide) (by decide)

/-- message/messages.gen.go:9933-9953 `CreateDelegationTokenRequest.Decode`, with the receiver kept -/
def CreateDelegationTokenRequest.decodeK (version : Int16) : KDec CreateDelegationTokenRequest :=
    KDec.fieldStructs (CreatableRenewers38.decodeK version {}) {} (fun t x => { t with Renewers := x }) ;|>
    KDec.field Dec.int64 0 (fun t x => { t with MaxLifetimeMs := x })

/-- Where the fields of `CreateDelegationTokenRequest` end. -/
def CreateDelegationTokenRequest.ends (version : Int16) (t : CreateDelegationTokenRequest) : Nat → Nat :=
  Cut.ends 0 [Wire.array (CreatableRenewers38.wire version) t.Renewers,
    Wire.int64 t.MaxLifetimeMs]

/-- What is left of `t` if only its first `n` bytes are there. -/
def CreateDelegationTokenRequest.cut (version : Int16) (n : Nat) (t : CreateDelegationTokenRequest) : CreateDelegationTokenRequest :=
  { Renewers := Cut.array n 0 (CreatableRenewers38.wire version) (fun x => x.seen version {}) {} t.Renewers,
    MaxLifetimeMs := Cut.field n (t.ends version 1) t.MaxLifetimeMs 0 }

/-- The same after the first `k` statements of `Decode`. -/
def CreateDelegationTokenRequest.cutAt (version : Int16) (t : CreateDelegationTokenRequest) (k n : Nat) : CreateDelegationTokenRequest :=
  { Renewers := upto k 0 (Cut.array n 0 (CreatableRenewers38.wire version) (fun x => x.seen version {}) {} t.Renewers) none,
    MaxLifetimeMs := upto k 1 (Cut.field n (t.ends version 1) t.MaxLifetimeMs 0) 0 }

/-- The first `k` fields of `y`, and zeros. -/
def CreateDelegationTokenRequest.first (k : Nat) (y : CreateDelegationTokenRequest) : CreateDelegationTokenRequest :=
  { Renewers := upto k 0 y.Renewers none,
    MaxLifetimeMs := upto k 1 y.MaxLifetimeMs 0 }

/-- `r` is a beginning of `y`, and zeros. -/
def CreateDelegationTokenRequest.Part (r y : CreateDelegationTokenRequest) : Prop :=
  (∃ k, k < 2 ∧ r = y.first k) ∨
    Cut.begun {} (fun t => t.Renewers) (fun t x => { t with Renewers := x }) (CreateDelegationTokenRequest.first 0) r y

/-- `CreateDelegationTokenRequest` with its receiver kept. -/
def CreateDelegationTokenRequest.keeps : KeptMsg CreateDelegationTokenRequest.type := { decode := CreateDelegationTokenRequest.decodeK, cut := CreateDelegationTokenRequest.cut, Part := CreateDelegationTokenRequest.Part }

theorem CreateDelegationTokenRequest.sameK (version : Int16) : KStep (CreateDelegationTokenRequest.decodeK version) (CreateDelegationTokenRequest.decode version) :=
  (KStep.structs (fun _ => rfl) (CreatableRenewers38.sameK version {}))
    |>.andThen (KStep.field)
theorem CreateDelegationTokenRequest.cutsK (version : Int16) (t : CreateDelegationTokenRequest) (h : t.Fits version) :
    Cuts (CreateDelegationTokenRequest.decodeK version) 0 (CreateDelegationTokenRequest.wire version t) (CreateDelegationTokenRequest.ends version t 1) (CreateDelegationTokenRequest.cutAt version t 0) (CreateDelegationTokenRequest.cutAt version t 2) :=
  (.structs (CreatableRenewers38.sameK version {}) (fun x hx => CreatableRenewers38.reads version x hx {}) h.Renewers (fun _ => rfl) (fun _ => rfl) : Cuts _ 0 _ (CreateDelegationTokenRequest.ends version t 0) (CreateDelegationTokenRequest.cutAt version t 0) (CreateDelegationTokenRequest.cutAt version t 1))
    |>.andThen (.field (reads_int64 t.MaxLifetimeMs) (fun _ => rfl) (fun _ => rfl) : Cuts _ (CreateDelegationTokenRequest.ends version t 0) _ (CreateDelegationTokenRequest.ends version t 1) (CreateDelegationTokenRequest.cutAt version t 1) (CreateDelegationTokenRequest.cutAt version t 2))
theorem CreateDelegationTokenRequest.partsK (version : Int16) : Parts (CreateDelegationTokenRequest.decodeK version) (CreateDelegationTokenRequest.first 0) (CreateDelegationTokenRequest.first 2) (fun r y => ((r = CreateDelegationTokenRequest.first 0 y ∨ Cut.begun {} (fun t => t.Renewers) (fun t x => { t with Renewers := x }) (CreateDelegationTokenRequest.first 0) r y) ∨ (r = CreateDelegationTokenRequest.first 1 y))) :=
  (.structs (get := fun (t : CreateDelegationTokenRequest) => t.Renewers) ((CreatableRenewers38.partsK version).longer {}) (fun _ => rfl) (fun _ => rfl) (fun _ _ => rfl) (fun _ _ => rfl) (fun _ _ => rfl) (fun _ => rfl) (fun _ => rfl) : Parts (KDec.fieldStructs (CreatableRenewers38.decodeK version {}) {} (fun t x => { t with Renewers := x })) (CreateDelegationTokenRequest.first 0) (CreateDelegationTokenRequest.first 1) (fun r y => r = CreateDelegationTokenRequest.first 0 y ∨ Cut.begun {} (fun t => t.Renewers) (fun t x => { t with Renewers := x }) (CreateDelegationTokenRequest.first 0) r y))
    |>.andThen (.field Longer.int64 (fun _ => rfl) (fun _ _ => rfl) (fun _ _ => rfl) (fun _ => rfl) : Parts (KDec.field Dec.int64 0 (fun t x => { t with MaxLifetimeMs := x })) (CreateDelegationTokenRequest.first 1) (CreateDelegationTokenRequest.first 2) (fun r y => r = CreateDelegationTokenRequest.first 1 y))
theorem CreateDelegationTokenRequest.filled (version : Int16) : FilledStep 12 8589967376 (CreateDelegationTokenRequest.decode version) :=
  ((FilledStep.structs (CreatableRenewers38.filled version {}))
    |>.andThen (FilledStep.field .int64)).mono (by decide) (by decide)
theorem CreateDelegationTokenRequest.part_of (r y : CreateDelegationTokenRequest) (h : ((r = CreateDelegationTokenRequest.first 0 y ∨ Cut.begun {} (fun t => t.Renewers) (fun t x => { t with Renewers := x }) (CreateDelegationTokenRequest.first 0) r y) ∨ (r = CreateDelegationTokenRequest.first 1 y))) : CreateDelegationTokenRequest.Part r y :=
  match h with
    | (.inl (.inl h)) => .inl ⟨0, by decide, h⟩
    | (.inl (.inr h)) => (.inr h)
    | (.inr h) => .inl ⟨1, by decide, h⟩
theorem CreateDelegationTokenRequest.keeps_holds : CreateDelegationTokenRequest.keeps.Holds CreateDelegationTokenRequest.layout :=
  KeptMsg.holds CreateDelegationTokenRequest.lawful CreateDelegationTokenRequest.sameK (stop := fun v t => CreateDelegationTokenRequest.ends v t 1) (c := fun v t => CreateDelegationTokenRequest.cutAt v t 0) (fun _ _ _ => rfl) CreateDelegationTokenRequest.cutsK (c0 := CreateDelegationTokenRequest.first 0) rfl CreateDelegationTokenRequest.partsK CreateDelegationTokenRequest.part_of CreateDelegationTokenRequest.filled (by decide) (by decide)

/-- message/messages.gen.go:10030-10069 `CreateDelegationTokenResponse.Decode`, with the receiver kept -/
def CreateDelegationTokenResponse.decodeK (_version : Int16) : KDec CreateDelegationTokenResponse :=
    KDec.field Dec.int16 0 (fun t x => { t with ErrorCode := x }) ;|>
    KDec.field Dec.string [] (fun t x => { t with PrincipalType := x }) ;|>
    KDec.field Dec.string [] (fun t x => { t with PrincipalName := x }) ;|>
    KDec.field Dec.int64 0 (fun t x => { t with IssueTimestampMs := x }) ;|>
    KDec.field Dec.int64 0 (fun t x => { t with ExpiryTimestampMs := x }) ;|>
    KDec.field Dec.int64 0 (fun t x => { t with MaxTimestampMs := x }) ;|>
    KDec.field Dec.string [] (fun t x => { t with TokenId := x }) ;|>
    KDec.field Dec.bytes none (fun t x => { t with Hmac := x }) ;|>
    KDec.field Dec.int32 0 (fun t x => { t with ThrottleTimeMs := x })

/-- Where the fields of `CreateDelegationTokenResponse` end. -/
def CreateDelegationTokenResponse.ends (_version : Int16) (t : CreateDelegationTokenResponse) : Nat → Nat :=
  Cut.ends 0 [Wire.int16 t.ErrorCode,
    Wire.string t.PrincipalType,
    Wire.string t.PrincipalName,
    Wire.int64 t.IssueTimestampMs,
    Wire.int64 t.ExpiryTimestampMs,
    Wire.int64 t.MaxTimestampMs,
    Wire.string t.TokenId,
    Wire.bytes t.Hmac,
    Wire.int32 t.ThrottleTimeMs]

/-- What is left of `t` if only its first `n` bytes are there. -/
def CreateDelegationTokenResponse.cut (version : Int16) (n : Nat) (t : CreateDelegationTokenResponse) : CreateDelegationTokenResponse :=
  { ErrorCode := Cut.field n (t.ends version 0) t.ErrorCode 0,
    PrincipalType := Cut.field n (t.ends version 1) t.PrincipalType [],
    PrincipalName := Cut.field n (t.ends version 2) t.PrincipalName [],
    IssueTimestampMs := Cut.field n (t.ends version 3) t.IssueTimestampMs 0,
    ExpiryTimestampMs := Cut.field n (t.ends version 4) t.ExpiryTimestampMs 0,
    MaxTimestampMs := Cut.field n (t.ends version 5) t.MaxTimestampMs 0,
    TokenId := Cut.field n (t.ends version 6) t.TokenId [],
    Hmac := Cut.field n (t.ends version 7) t.Hmac.nonNil none,
    ThrottleTimeMs := Cut.field n (t.ends version 8) t.ThrottleTimeMs 0 }

/-- The same after the first `k` statements of `Decode`. -/
def CreateDelegationTokenResponse.cutAt (version : Int16) (t : CreateDelegationTokenResponse) (k n : Nat) : CreateDelegationTokenResponse :=
  { ErrorCode := upto k 0 (Cut.field n (t.ends version 0) t.ErrorCode 0) 0,
    PrincipalType := upto k 1 (Cut.field n (t.ends version 1) t.PrincipalType []) [],
    PrincipalName := upto k 2 (Cut.field n (t.ends version 2) t.PrincipalName []) [],
    IssueTimestampMs := upto k 3 (Cut.field n (t.ends version 3) t.IssueTimestampMs 0) 0,
    ExpiryTimestampMs := upto k 4 (Cut.field n (t.ends version 4) t.ExpiryTimestampMs 0) 0,
    MaxTimestampMs := upto k 5 (Cut.field n (t.ends version 5) t.MaxTimestampMs 0) 0,
    TokenId := upto k 6 (Cut.field n (t.ends version 6) t.TokenId []) [],
    Hmac := upto k 7 (Cut.field n (t.ends version 7) t.Hmac.nonNil none) none,
    ThrottleTimeMs := upto k 8 (Cut.field n (t.ends version 8) t.ThrottleTimeMs 0) 0 }

/-- The first `k` fields of `y`, and zeros. -/
def CreateDelegationTokenResponse.first (k : Nat) (y : CreateDelegationTokenResponse) : CreateDelegationTokenResponse :=
  { ErrorCode := upto k 0 y.ErrorCode 0,
    PrincipalType := upto k 1 y.PrincipalType [],
    PrincipalName := upto k 2 y.PrincipalName [],
    IssueTimestampMs := upto k 3 y.IssueTimestampMs 0,
    ExpiryTimestampMs := upto k 4 y.ExpiryTimestampMs 0,
    MaxTimestampMs := upto k 5 y.MaxTimestampMs 0,
    TokenId := upto k 6 y.TokenId [],
    Hmac := upto k 7 y.Hmac none,
    ThrottleTimeMs := upto k 8 y.ThrottleTimeMs 0 }

/-- `r` is a beginning of `y`, and zeros. -/
def CreateDelegationTokenResponse.Part (r y : CreateDelegationTokenResponse) : Prop :=
  (∃ k, k < 9 ∧ r = y.first k)

/-- `CreateDelegationTokenResponse` with its receiver kept. -/
def CreateDelegationTokenResponse.keeps : KeptMsg CreateDelegationTokenResponse.type := { decode := CreateDelegationTokenResponse.decodeK, cut := CreateDelegationTokenResponse.cut, Part := CreateDelegationTokenResponse.Part }

theorem CreateDelegationTokenResponse.sameK (version : Int16) : KStep (CreateDelegationTokenResponse.decodeK version) (CreateDelegationTokenResponse.decode version) :=
  (KStep.field)
    |>.andThen (KStep.field)
    |>.andThen (KStep.field)
    |>.andThen (KStep.field)
    |>.andThen (KStep.field)
    |>.andThen (KStep.field)
    |>.andThen (KStep.field)
    |>.andThen (KStep.field)
    |>.andThen (KStep.field)
theorem CreateDelegationTokenResponse.cutsK (version : Int16) (t : CreateDelegationTokenResponse) (h : t.Fits version) :
    Cuts (CreateDelegationTokenResponse.decodeK version) 0 (CreateDelegationTokenResponse.wire version t) (CreateDelegationTokenResponse.ends version t 8) (CreateDelegationTokenResponse.cutAt version t 0) (CreateDelegationTokenResponse.cutAt version t 9) :=
  (.field (reads_int16 t.ErrorCode) (fun _ => rfl) (fun _ => rfl) : Cuts _ 0 _ (CreateDelegationTokenResponse.ends version t 0) (CreateDelegationTokenResponse.cutAt version t 0) (CreateDelegationTokenResponse.cutAt version t 1))
    |>.andThen (.field (reads_string h.PrincipalType) (fun _ => rfl) (fun _ => rfl) : Cuts _ (CreateDelegationTokenResponse.ends version t 0) _ (CreateDelegationTokenResponse.ends version t 1) (CreateDelegationTokenResponse.cutAt version t 1) (CreateDelegationTokenResponse.cutAt version t 2))
    |>.andThen (.field (reads_string h.PrincipalName) (fun _ => rfl) (fun _ => rfl) : Cuts _ (CreateDelegationTokenResponse.ends version t 1) _ (CreateDelegationTokenResponse.ends version t 2) (CreateDelegationTokenResponse.cutAt version t 2) (CreateDelegationTokenResponse.cutAt version t 3))
    |>.andThen (.field (reads_int64 t.IssueTimestampMs) (fun _ => rfl) (fun _ => rfl) : Cuts _ (CreateDelegationTokenResponse.ends version t 2) _ (CreateDelegationTokenResponse.ends version t 3) (CreateDelegationTokenResponse.cutAt version t 3) (CreateDelegationTokenResponse.cutAt version t 4))
    |>.andThen (.field (reads_int64 t.ExpiryTimestampMs) (fun _ => rfl) (fun _ => rfl) : Cuts _ (CreateDelegationTokenResponse.ends version t 3) _ (CreateDelegationTokenResponse.ends version t 4) (CreateDelegationTokenResponse.cutAt version t 4) (CreateDelegationTokenResponse.cutAt version t 5))
    |>.andThen (.field (reads_int64 t.MaxTimestampMs) (fun _ => rfl) (fun _ => rfl) : Cuts _ (CreateDelegationTokenResponse.ends version t 4) _ (CreateDelegationTokenResponse.ends version t 5) (CreateDelegationTokenResponse.cutAt version t 5) (CreateDelegationTokenResponse.cutAt version t 6))
    |>.andThen (.field (reads_string h.TokenId) (fun _ => rfl) (fun _ => rfl) : Cuts _ (CreateDelegationTokenResponse.ends version t 5) _ (CreateDelegationTokenResponse.ends version t 6) (CreateDelegationTokenResponse.cutAt version t 6) (CreateDelegationTokenResponse.cutAt version t 7))
    |>.andThen (.field (reads_bytes h.Hmac) (fun _ => rfl) (fun _ => rfl) : Cuts _ (CreateDelegationTokenResponse.ends version t 6) _ (CreateDelegationTokenResponse.ends version t 7) (CreateDelegationTokenResponse.cutAt version t 7) (CreateDelegationTokenResponse.cutAt version t 8))
    |>.andThen (.field (reads_int32 t.ThrottleTimeMs) (fun _ => rfl) (fun _ => rfl) : Cuts _ (CreateDelegationTokenResponse.ends version t 7) _ (CreateDelegationTokenResponse.ends version t 8) (CreateDelegationTokenResponse.cutAt version t 8) (CreateDelegationTokenResponse.cutAt version t 9))
theorem CreateDelegationTokenResponse.partsK (version : Int16) : Parts (CreateDelegationTokenResponse.decodeK version) (CreateDelegationTokenResponse.first 0) (CreateDelegationTokenResponse.first 9) (fun r y => (((((((((r = CreateDelegationTokenResponse.first 0 y) ∨ (r = CreateDelegationTokenResponse.first 1 y)) ∨ (r = CreateDelegationTokenResponse.first 2 y)) ∨ (r = CreateDelegationTokenResponse.first 3 y)) ∨ (r = CreateDelegationTokenResponse.first 4 y)) ∨ (r = CreateDelegationTokenResponse.first 5 y)) ∨ (r = CreateDelegationTokenResponse.first 6 y)) ∨ (r = CreateDelegationTokenResponse.first 7 y)) ∨ (r = CreateDelegationTokenResponse.first 8 y))) :=
  (.field Longer.int16 (fun _ => rfl) (fun _ _ => rfl) (fun _ _ => rfl) (fun _ => rfl) : Parts (KDec.field Dec.int16 0 (fun t x => { t with ErrorCode := x })) (CreateDelegationTokenResponse.first 0) (CreateDelegationTokenResponse.first 1) (fun r y => r = CreateDelegationTokenResponse.first 0 y))
    |>.andThen (.field Longer.string (fun _ => rfl) (fun _ _ => rfl) (fun _ _ => rfl) (fun _ => rfl) : Parts (KDec.field Dec.string [] (fun t x => { t with PrincipalType := x })) (CreateDelegationTokenResponse.first 1) (CreateDelegationTokenResponse.first 2) (fun r y => r = CreateDelegationTokenResponse.first 1 y))
    |>.andThen (.field Longer.string (fun _ => rfl) (fun _ _ => rfl) (fun _ _ => rfl) (fun _ => rfl) : Parts (KDec.field Dec.string [] (fun t x => { t with PrincipalName := x })) (CreateDelegationTokenResponse.first 2) (CreateDelegationTokenResponse.first 3) (fun r y => r = CreateDelegationTokenResponse.first 2 y))
    |>.andThen (.field Longer.int64 (fun _ => rfl) (fun _ _ => rfl) (fun _ _ => rfl) (fun _ => rfl) : Parts (KDec.field Dec.int64 0 (fun t x => { t with IssueTimestampMs := x })) (CreateDelegationTokenResponse.first 3) (CreateDelegationTokenResponse.first 4) (fun r y => r = CreateDelegationTokenResponse.first 3 y))
    |>.andThen (.field Longer.int64 (fun _ => rfl) (fun _ _ => rfl) (fun _ _ => rfl) (fun _ => rfl) : Parts (KDec.field Dec.int64 0 (fun t x => { t with ExpiryTimestampMs := x })) (CreateDelegationTokenResponse.first 4) (CreateDelegationTokenResponse.first 5) (fun r y => r = CreateDelegationTokenResponse.first 4 y))
    |>.andThen (.field Longer.int64 (fun _ => rfl) (fun _ _ => rfl) (fun _ _ => rfl) (fun _ => rfl) : Parts (KDec.field Dec.int64 0 (fun t x => { t with MaxTimestampMs := x })) (CreateDelegationTokenResponse.first 5) (CreateDelegationTokenResponse.first 6) (fun r y => r = CreateDelegationTokenResponse.first 5 y))
    |>.andThen (.field Longer.string (fun _ => rfl) (fun _ _ => rfl) (fun _ _ => rfl) (fun _ => rfl) : Parts (KDec.field Dec.string [] (fun t x => { t with TokenId := x })) (CreateDelegationTokenResponse.first 6) (CreateDelegationTokenResponse.first 7) (fun r y => r = CreateDelegationTokenResponse.first 6 y))
    |>.andThen (.field Longer.bytes (fun _ => rfl) (fun _ _ => rfl) (fun _ _ => rfl) (fun _ => rfl) : Parts (KDec.field Dec.bytes none (fun t x => { t with Hmac := x })) (CreateDelegationTokenResponse.first 7) (CreateDelegationTokenResponse.first 8) (fun r y => r = CreateDelegationTokenResponse.first 7 y))
    |>.andThen (.field Longer.int32 (fun _ => rfl) (fun _ _ => rfl) (fun _ _ => rfl) (fun _ => rfl) : Parts (KDec.field Dec.int32 0 (fun t x => { t with ThrottleTimeMs := x })) (CreateDelegationTokenResponse.first 8) (CreateDelegationTokenResponse.first 9) (fun r y => r = CreateDelegationTokenResponse.first 8 y))
theorem CreateDelegationTokenResponse.filled (version : Int16) : FilledStep 40 2147483656 (CreateDelegationTokenResponse.decode version) :=
  ((FilledStep.field .int16)
    |>.andThen (FilledStep.field .string)
    |>.andThen (FilledStep.field .string)
    |>.andThen (FilledStep.field .int64)
    |>.andThen (FilledStep.field .int64)
    |>.andThen (FilledStep.field .int64)
    |>.andThen (FilledStep.field .string)
    |>.andThen (FilledStep.field .bytes)
    |>.andThen (FilledStep.field .int32)).mono (by decide) (by decide)
theorem CreateDelegationTokenResponse.part_of (r y : CreateDelegationTokenResponse) (h : (((((((((r = CreateDelegationTokenResponse.first 0 y) ∨ (r = CreateDelegationTokenResponse.first 1 y)) ∨ (r = CreateDelegationTokenResponse.first 2 y)) ∨ (r = CreateDelegationTokenResponse.first 3 y)) ∨ (r = CreateDelegationTokenResponse.first 4 y)) ∨ (r = CreateDelegationTokenResponse.first 5 y)) ∨ (r = CreateDelegationTokenResponse.first 6 y)) ∨ (r = CreateDelegationTokenResponse.first 7 y)) ∨ (r = CreateDelegationTokenResponse.first 8 y))) : CreateDelegationTokenResponse.Part r y :=
  match h with
    | (.inl (.inl (.inl (.inl (.inl (.inl (.inl (.inl h)))))))) => ⟨0, by decide, h⟩
    | (.inl (.inl (.inl (.inl (.inl (.inl (.inl (.inr h)))))))) => ⟨1, by decide, h⟩
    | (.inl (.inl (.inl (.inl (.inl (.inl (.inr h))))))) => ⟨2, by decide, h⟩
    | (.inl (.inl (.inl (.inl (.inl (.inr h)))))) => ⟨3, by decide, h⟩
    | (.inl (.inl (.inl (.inl (.inr h))))) => ⟨4, by decide, h⟩
    | (.inl (.inl (.inl (.inr h)))) => ⟨5, by decide, h⟩
    | (.inl (.inl (.inr h))) => ⟨6, by decide, h⟩
    | (.inl (.inr h)) => ⟨7, by decide, h⟩
    | (.inr h) => ⟨8, by decide, h⟩
theorem CreateDelegationTokenResponse.keeps_holds : CreateDelegationTokenResponse.keeps.Holds CreateDelegationTokenResponse.layout :=
  KeptMsg.holds CreateDelegationTokenResponse.lawful CreateDelegationTokenResponse.sameK (stop := fun v t => CreateDelegationTokenResponse.ends v t 8) (c := fun v t => CreateDelegationTokenResponse.cutAt v t 0) (fun _ _ _ => rfl) CreateDelegationTokenResponse.cutsK (c0 := CreateDelegationTokenResponse.first 0) rfl CreateDelegationTokenResponse.partsK CreateDelegationTokenResponse.part_of CreateDelegationTokenResponse.filled (by decide) (by decide)

/-- The structures of the CreateDelegationToken messages. -/
def keptCreateDelegationToken : List (Σ (M : MsgType) (_ : Layout M), KeptMsg M) :=
  [⟨CreateDelegationTokenRequest.type, CreateDelegationTokenRequest.layout, CreateDelegationTokenRequest.keeps⟩,
   ⟨CreatableRenewers38.type, CreatableRenewers38.layout, CreatableRenewers38.keeps⟩,
   ⟨CreateDelegationTokenResponse.type, CreateDelegationTokenResponse.layout, CreateDelegationTokenResponse.keeps⟩]
theorem keptCreateDelegationToken_holds : ∀ p ∈ keptCreateDelegationToken, p.2.2.Holds p.2.1 := by
  unfold keptCreateDelegationToken
  simp only [List.forall_mem_cons]
  exact ⟨CreateDelegationTokenRequest.keeps_holds, CreatableRenewers38.keeps_holds, CreateDelegationTokenResponse.keeps_holds, fun _ h => absurd h (by simp)⟩

end Kafka.Msg
