import Verif.Message.KeptLemmas
import Verif.Gen.Proof.RenewDelegationToken
/-!
Generated by tools/gen_messages.py: what is in the RenewDelegationToken messages after an error.
-/
set_option linter.unusedVariables false
namespace Kafka.Msg

/-- message/messages.gen.go:10092-10103 `RenewDelegationTokenRequest.Decode`, with the receiver kept -/
def RenewDelegationTokenRequest.decodeK (_version : Int16) : KDec RenewDelegationTokenRequest :=
    KDec.field Dec.bytes none (fun t x => { t with Hmac := x }) ;|>
    KDec.field Dec.int64 0 (fun t x => { t with RenewPeriodMs := x })

/-- Where the fields of `RenewDelegationTokenRequest` end. -/
def RenewDelegationTokenRequest.ends (_version : Int16) (t : RenewDelegationTokenRequest) : Nat → Nat :=
  Cut.ends 0 [Wire.bytes t.Hmac,
    Wire.int64 t.RenewPeriodMs]

/-- What is left of `t` if only its first `n` bytes are there. -/
def RenewDelegationTokenRequest.cut (version : Int16) (n : Nat) (t : RenewDelegationTokenRequest) : RenewDelegationTokenRequest :=
  { Hmac := Cut.field n (t.ends version 0) t.Hmac.nonNil none,
    RenewPeriodMs := Cut.field n (t.ends version 1) t.RenewPeriodMs 0 }

/-- The same after the first `k` statements of `Decode`. -/
def RenewDelegationTokenRequest.cutAt (version : Int16) (t : RenewDelegationTokenRequest) (k n : Nat) : RenewDelegationTokenRequest :=
  { Hmac := upto k 0 (Cut.field n (t.ends version 0) t.Hmac.nonNil none) none,
    RenewPeriodMs := upto k 1 (Cut.field n (t.ends version 1) t.RenewPeriodMs 0) 0 }

/-- The first `k` fields of `y`, and zeros. -/
def RenewDelegationTokenRequest.first (k : Nat) (y : RenewDelegationTokenRequest) : RenewDelegationTokenRequest :=
  { Hmac := upto k 0 y.Hmac none,
    RenewPeriodMs := upto k 1 y.RenewPeriodMs 0 }

/-- `r` is a beginning of `y`, and zeros. -/
def RenewDelegationTokenRequest.Part (r y : RenewDelegationTokenRequest) : Prop :=
  (∃ k, k < 2 ∧ r = y.first k)

/-- `RenewDelegationTokenRequest` with its receiver kept. -/
def RenewDelegationTokenRequest.keeps : KeptMsg RenewDelegationTokenRequest.type := { decode := RenewDelegationTokenRequest.decodeK, cut := RenewDelegationTokenRequest.cut, Part := RenewDelegationTokenRequest.Part }

theorem RenewDelegationTokenRequest.sameK (version : Int16) : KStep (RenewDelegationTokenRequest.decodeK version) (RenewDelegationTokenRequest.decode version) :=
  (KStep.field)
    |>.andThen (KStep.field)
theorem RenewDelegationTokenRequest.cutsK (version : Int16) (t : RenewDelegationTokenRequest) (h : t.Fits version) :
    Cuts (RenewDelegationTokenRequest.decodeK version) 0 (RenewDelegationTokenRequest.wire version t) (RenewDelegationTokenRequest.ends version t 1) (RenewDelegationTokenRequest.cutAt version t 0) (RenewDelegationTokenRequest.cutAt version t 2) :=
  (.field (reads_bytes h.Hmac) (fun _ => rfl) (fun _ => rfl) : Cuts _ 0 _ (RenewDelegationTokenRequest.ends version t 0) (RenewDelegationTokenRequest.cutAt version t 0) (RenewDelegationTokenRequest.cutAt version t 1))
    |>.andThen (.field (reads_int64 t.RenewPeriodMs) (fun _ => rfl) (fun _ => rfl) : Cuts _ (RenewDelegationTokenRequest.ends version t 0) _ (RenewDelegationTokenRequest.ends version t 1) (RenewDelegationTokenRequest.cutAt version t 1) (RenewDelegationTokenRequest.cutAt version t 2))
theorem RenewDelegationTokenRequest.partsK (version : Int16) : Parts (RenewDelegationTokenRequest.decodeK version) (RenewDelegationTokenRequest.first 0) (RenewDelegationTokenRequest.first 2) (fun r y => ((r = RenewDelegationTokenRequest.first 0 y) ∨ (r = RenewDelegationTokenRequest.first 1 y))) :=
  (.field Longer.bytes (fun _ => rfl) (fun _ _ => rfl) (fun _ _ => rfl) (fun _ => rfl) : Parts (KDec.field Dec.bytes none (fun t x => { t with Hmac := x })) (RenewDelegationTokenRequest.first 0) (RenewDelegationTokenRequest.first 1) (fun r y => r = RenewDelegationTokenRequest.first 0 y))
    |>.andThen (.field Longer.int64 (fun _ => rfl) (fun _ _ => rfl) (fun _ _ => rfl) (fun _ => rfl) : Parts (KDec.field Dec.int64 0 (fun t x => { t with RenewPeriodMs := x })) (RenewDelegationTokenRequest.first 1) (RenewDelegationTokenRequest.first 2) (fun r y => r = RenewDelegationTokenRequest.first 1 y))
theorem RenewDelegationTokenRequest.filled (version : Int16) : FilledStep 12 2147483660 (RenewDelegationTokenRequest.decode version) :=
  ((FilledStep.field .bytes)
    |>.andThen (FilledStep.field .int64)).mono (by decide) (by decide)
theorem RenewDelegationTokenRequest.part_of (r y : RenewDelegationTokenRequest) (h : ((r = RenewDelegationTokenRequest.first 0 y) ∨ (r = RenewDelegationTokenRequest.first 1 y))) : RenewDelegationTokenRequest.Part r y :=
  match h with
    | (.inl h) => ⟨0, by decide, h⟩
    | (.inr h) => ⟨1, by decide, h⟩
theorem RenewDelegationTokenRequest.keeps_holds : RenewDelegationTokenRequest.keeps.Holds RenewDelegationTokenRequest.layout :=
  KeptMsg.holds RenewDelegationTokenRequest.lawful RenewDelegationTokenRequest.sameK (stop := fun v t => RenewDelegationTokenRequest.ends v t 1) (c := fun v t => RenewDelegationTokenRequest.cutAt v t 0) (fun _ _ _ => rfl) RenewDelegationTokenRequest.cutsK (c0 := RenewDelegationTokenRequest.first 0) rfl RenewDelegationTokenRequest.partsK RenewDelegationTokenRequest.part_of RenewDelegationTokenRequest.filled (by decide) (by decide)

/-- message/messages.gen.go:10129-10144 `RenewDelegationTokenResponse.Decode`, with the receiver kept -/
def RenewDelegationTokenResponse.decodeK (_version : Int16) : KDec RenewDelegationTokenResponse :=
    KDec.field Dec.int16 0 (fun t x => { t with ErrorCode := x }) ;|>
    KDec.field Dec.int64 0 (fun t x => { t with ExpiryTimestampMs := x }) ;|>
    KDec.field Dec.int32 0 (fun t x => { t with ThrottleTimeMs := x })

/-- Where the fields of `RenewDelegationTokenResponse` end. -/
def RenewDelegationTokenResponse.ends (_version : Int16) (t : RenewDelegationTokenResponse) : Nat → Nat :=
  Cut.ends 0 [Wire.int16 t.ErrorCode,
    Wire.int64 t.ExpiryTimestampMs,
    Wire.int32 t.ThrottleTimeMs]

/-- What is left of `t` if only its first `n` bytes are there. -/
def RenewDelegationTokenResponse.cut (version : Int16) (n : Nat) (t : RenewDelegationTokenResponse) : RenewDelegationTokenResponse :=
  { ErrorCode := Cut.field n (t.ends version 0) t.ErrorCode 0,
    ExpiryTimestampMs := Cut.field n (t.ends version 1) t.ExpiryTimestampMs 0,
    ThrottleTimeMs := Cut.field n (t.ends version 2) t.ThrottleTimeMs 0 }

/-- The same after the first `k` statements of `Decode`. -/
def RenewDelegationTokenResponse.cutAt (version : Int16) (t : RenewDelegationTokenResponse) (k n : Nat) : RenewDelegationTokenResponse :=
  { ErrorCode := upto k 0 (Cut.field n (t.ends version 0) t.ErrorCode 0) 0,
    ExpiryTimestampMs := upto k 1 (Cut.field n (t.ends version 1) t.ExpiryTimestampMs 0) 0,
    ThrottleTimeMs := upto k 2 (Cut.field n (t.ends version 2) t.ThrottleTimeMs 0) 0 }

/-- The first `k` fields of `y`, and zeros. -/
def RenewDelegationTokenResponse.first (k : Nat) (y : RenewDelegationTokenResponse) : RenewDelegationTokenResponse :=
  { ErrorCode := upto k 0 y.ErrorCode 0,
    ExpiryTimestampMs := upto k 1 y.ExpiryTimestampMs 0,
    ThrottleTimeMs := upto k 2 y.ThrottleTimeMs 0 }

/-- `r` is a beginning of `y`, and zeros. -/
def RenewDelegationTokenResponse.Part (r y : RenewDelegationTokenResponse) : Prop :=
  (∃ k, k < 3 ∧ r = y.first k)

/-- `RenewDelegationTokenResponse` with its receiver kept. -/
def RenewDelegationTokenResponse.keeps : KeptMsg RenewDelegationTokenResponse.type := { decode := RenewDelegationTokenResponse.decodeK, cut := RenewDelegationTokenResponse.cut, Part := RenewDelegationTokenResponse.Part }

theorem RenewDelegationTokenResponse.sameK (version : Int16) : KStep (RenewDelegationTokenResponse.decodeK version) (RenewDelegationTokenResponse.decode version) :=
  (KStep.field)
    |>.andThen (KStep.field)
    |>.andThen (KStep.field)
theorem RenewDelegationTokenResponse.cutsK (version : Int16) (t : RenewDelegationTokenResponse) (h : t.Fits version) :
    Cuts (RenewDelegationTokenResponse.decodeK version) 0 (RenewDelegationTokenResponse.wire version t) (RenewDelegationTokenResponse.ends version t 2) (RenewDelegationTokenResponse.cutAt version t 0) (RenewDelegationTokenResponse.cutAt version t 3) :=
  (.field (reads_int16 t.ErrorCode) (fun _ => rfl) (fun _ => rfl) : Cuts _ 0 _ (RenewDelegationTokenResponse.ends version t 0) (RenewDelegationTokenResponse.cutAt version t 0) (RenewDelegationTokenResponse.cutAt version t 1))
    |>.andThen (.field (reads_int64 t.ExpiryTimestampMs) (fun _ => rfl) (fun _ => rfl) : Cuts _ (RenewDelegationTokenResponse.ends version t 0) _ (RenewDelegationTokenResponse.ends version t 1) (RenewDelegationTokenResponse.cutAt version t 1) (RenewDelegationTokenResponse.cutAt version t 2))
    |>.andThen (.field (reads_int32 t.ThrottleTimeMs) (fun _ => rfl) (fun _ => rfl) : Cuts _ (RenewDelegationTokenResponse.ends version t 1) _ (RenewDelegationTokenResponse.ends version t 2) (RenewDelegationTokenResponse.cutAt version t 2) (RenewDelegationTokenResponse.cutAt version t 3))
theorem RenewDelegationTokenResponse.partsK (version : Int16) : Parts (RenewDelegationTokenResponse.decodeK version) (RenewDelegationTokenResponse.first 0) (RenewDelegationTokenResponse.first 3) (fun r y => (((r = RenewDelegationTokenResponse.first 0 y) ∨ (r = RenewDelegationTokenResponse.first 1 y)) ∨ (r = RenewDelegationTokenResponse.first 2 y))) :=
  (.field Longer.int16 (fun _ => rfl) (fun _ _ => rfl) (fun _ _ => rfl) (fun _ => rfl) : Parts (KDec.field Dec.int16 0 (fun t x => { t with ErrorCode := x })) (RenewDelegationTokenResponse.first 0) (RenewDelegationTokenResponse.first 1) (fun r y => r = RenewDelegationTokenResponse.first 0 y))
    |>.andThen (.field Longer.int64 (fun _ => rfl) (fun _ _ => rfl) (fun _ _ => rfl) (fun _ => rfl) : Parts (KDec.field Dec.int64 0 (fun t x => { t with ExpiryTimestampMs := x })) (RenewDelegationTokenResponse.first 1) (RenewDelegationTokenResponse.first 2) (fun r y => r = RenewDelegationTokenResponse.first 1 y))
    |>.andThen (.field Longer.int32 (fun _ => rfl) (fun _ _ => rfl) (fun _ _ => rfl) (fun _ => rfl) : Parts (KDec.field Dec.int32 0 (fun t x => { t with ThrottleTimeMs := x })) (RenewDelegationTokenResponse.first 2) (RenewDelegationTokenResponse.first 3) (fun r y => r = RenewDelegationTokenResponse.first 2 y))
theorem RenewDelegationTokenResponse.filled (version : Int16) : FilledStep 14 14 (RenewDelegationTokenResponse.decode version) :=
  ((FilledStep.field .int16)
    |>.andThen (FilledStep.field .int64)
    |>.andThen (FilledStep.field .int32)).mono (by decide) (by decide)
theorem RenewDelegationTokenResponse.part_of (r y : RenewDelegationTokenResponse) (h : (((r = RenewDelegationTokenResponse.first 0 y) ∨ (r = RenewDelegationTokenResponse.first 1 y)) ∨ (r = RenewDelegationTokenResponse.first 2 y))) : RenewDelegationTokenResponse.Part r y :=
  match h with
    | (.inl (.inl h)) => ⟨0, by decide, h⟩
    | (.inl (.inr h)) => ⟨1, by decide, h⟩
    | (.inr h) => ⟨2, by decide, h⟩
theorem RenewDelegationTokenResponse.keeps_holds : RenewDelegationTokenResponse.keeps.Holds RenewDelegationTokenResponse.layout :=
  KeptMsg.holds RenewDelegationTokenResponse.lawful RenewDelegationTokenResponse.sameK (stop := fun v t => RenewDelegationTokenResponse.ends v t 2) (c := fun v t => RenewDelegationTokenResponse.cutAt v t 0) (fun _ _ _ => rfl) RenewDelegationTokenResponse.cutsK (c0 := RenewDelegationTokenResponse.first 0) rfl RenewDelegationTokenResponse.partsK RenewDelegationTokenResponse.part_of RenewDelegationTokenResponse.filled (by decide) (by decide)

/-- The structures of the RenewDelegationToken messages. -/
def keptRenewDelegationToken : List (Σ (M : MsgType) (_ : Layout M), KeptMsg M) :=
  [⟨RenewDelegationTokenRequest.type, RenewDelegationTokenRequest.layout, RenewDelegationTokenRequest.keeps⟩,
   ⟨RenewDelegationTokenResponse.type, RenewDelegationTokenResponse.layout, RenewDelegationTokenResponse.keeps⟩]
theorem keptRenewDelegationToken_holds : ∀ p ∈ keptRenewDelegationToken, p.2.2.Holds p.2.1 := by
  unfold keptRenewDelegationToken
  simp only [List.forall_mem_cons]
  exact ⟨RenewDelegationTokenRequest.keeps_holds, RenewDelegationTokenResponse.keeps_holds, fun _ h => absurd h (by simp)⟩

end Kafka.Msg
