import Verif.Message.KeptLemmas
import Verif.Gen.Proof.ExpireDelegationToken
/-!
Generated by tools/gen_messages.py: what is in the ExpireDelegationToken messages after an error.
-/
set_option linter.unusedVariables false
namespace Kafka.Msg

/-- message/messages.gen.go:10167-10178 `ExpireDelegationTokenRequest.Decode`, with the receiver kept -/
def ExpireDelegationTokenRequest.decodeK (_version : Int16) : KDec ExpireDelegationTokenRequest :=
    KDec.field Dec.bytes none (fun t x => { t with Hmac := x }) ;|>
    KDec.field Dec.int64 0 (fun t x => { t with ExpiryTimePeriodMs := x })

/-- Where the fields of `ExpireDelegationTokenRequest` end. -/
def ExpireDelegationTokenRequest.ends (_version : Int16) (t : ExpireDelegationTokenRequest) : Nat → Nat :=
  Cut.ends 0 [Wire.bytes t.Hmac,
    Wire.int64 t.ExpiryTimePeriodMs]

/-- What is left of `t` if only its first `n` bytes are there. -/
def ExpireDelegationTokenRequest.cut (version : Int16) (n : Nat) (t : ExpireDelegationTokenRequest) : ExpireDelegationTokenRequest :=
  { Hmac := Cut.field n (t.ends version 0) t.Hmac.nonNil none,
    ExpiryTimePeriodMs := Cut.field n (t.ends version 1) t.ExpiryTimePeriodMs 0 }

/-- The same after the first `k` statements of `Decode`. -/
def ExpireDelegationTokenRequest.cutAt (version : Int16) (t : ExpireDelegationTokenRequest) (k n : Nat) : ExpireDelegationTokenRequest :=
  { Hmac := upto k 0 (Cut.field n (t.ends version 0) t.Hmac.nonNil none) none,
    ExpiryTimePeriodMs := upto k 1 (Cut.field n (t.ends version 1) t.ExpiryTimePeriodMs 0) 0 }

/-- The first `k` fields of `y`, and zeros. -/
def ExpireDelegationTokenRequest.first (k : Nat) (y : ExpireDelegationTokenRequest) : ExpireDelegationTokenRequest :=
  { Hmac := upto k 0 y.Hmac none,
    ExpiryTimePeriodMs := upto k 1 y.ExpiryTimePeriodMs 0 }

/-- `r` is a beginning of `y`, and zeros. -/
def ExpireDelegationTokenRequest.Part (r y : ExpireDelegationTokenRequest) : Prop :=
  (∃ k, k < 2 ∧ r = y.first k)

/-- `ExpireDelegationTokenRequest` with its receiver kept. -/
def ExpireDelegationTokenRequest.keeps : KeptMsg ExpireDelegationTokenRequest.type := { decode := ExpireDelegationTokenRequest.decodeK, cut := ExpireDelegationTokenRequest.cut, Part := ExpireDelegationTokenRequest.Part }

theorem ExpireDelegationTokenRequest.sameK (version : Int16) : KStep (ExpireDelegationTokenRequest.decodeK version) (ExpireDelegationTokenRequest.decode version) :=
  (KStep.field)
    |>.andThen (KStep.field)
theorem ExpireDelegationTokenRequest.cutsK (version : Int16) (t : ExpireDelegationTokenRequest) (h : t.Fits version) :
    Cuts (ExpireDelegationTokenRequest.decodeK version) 0 (ExpireDelegationTokenRequest.wire version t) (ExpireDelegationTokenRequest.ends version t 1) (ExpireDelegationTokenRequest.cutAt version t 0) (ExpireDelegationTokenRequest.cutAt version t 2) :=
  (.field (reads_bytes h.Hmac) (fun _ => rfl) (fun _ => rfl) : Cuts _ 0 _ (ExpireDelegationTokenRequest.ends version t 0) (ExpireDelegationTokenRequest.cutAt version t 0) (ExpireDelegationTokenRequest.cutAt version t 1))
    |>.andThen (.field (reads_int64 t.ExpiryTimePeriodMs) (fun _ => rfl) (fun _ => rfl) : Cuts _ (ExpireDelegationTokenRequest.ends version t 0) _ (ExpireDelegationTokenRequest.ends version t 1) (ExpireDelegationTokenRequest.cutAt version t 1) (ExpireDelegationTokenRequest.cutAt version t 2))
theorem ExpireDelegationTokenRequest.partsK (version : Int16) : Parts (ExpireDelegationTokenRequest.decodeK version) (ExpireDelegationTokenRequest.first 0) (ExpireDelegationTokenRequest.first 2) (fun r y => ((r = ExpireDelegationTokenRequest.first 0 y) ∨ (r = ExpireDelegationTokenRequest.first 1 y))) :=
  (.field Longer.bytes (fun _ => rfl) (fun _ _ => rfl) (fun _ _ => rfl) (fun _ => rfl) : Parts (KDec.field Dec.bytes none (fun t x => { t with Hmac := x })) (ExpireDelegationTokenRequest.first 0) (ExpireDelegationTokenRequest.first 1) (fun r y => r = ExpireDelegationTokenRequest.first 0 y))
    |>.andThen (.field Longer.int64 (fun _ => rfl) (fun _ _ => rfl) (fun _ _ => rfl) (fun _ => rfl) : Parts (KDec.field Dec.int64 0 (fun t x => { t with ExpiryTimePeriodMs := x })) (ExpireDelegationTokenRequest.first 1) (ExpireDelegationTokenRequest.first 2) (fun r y => r = ExpireDelegationTokenRequest.first 1 y))
theorem ExpireDelegationTokenRequest.filled (version : Int16) : FilledStep 12 2147483660 (ExpireDelegationTokenRequest.decode version) :=
  ((FilledStep.field .bytes)
    |>.andThen (FilledStep.field .int64)).mono (by decide) (by decide)
theorem ExpireDelegationTokenRequest.part_of (r y : ExpireDelegationTokenRequest) (h : ((r = ExpireDelegationTokenRequest.first 0 y) ∨ (r = ExpireDelegationTokenRequest.first 1 y))) : ExpireDelegationTokenRequest.Part r y :=
  match h with
    | (.inl h) => ⟨0, by decide, h⟩
    | (.inr h) => ⟨1, by decide, h⟩
theorem ExpireDelegationTokenRequest.keeps_holds : ExpireDelegationTokenRequest.keeps.Holds ExpireDelegationTokenRequest.layout :=
  KeptMsg.holds ExpireDelegationTokenRequest.lawful ExpireDelegationTokenRequest.sameK (stop := fun v t => ExpireDelegationTokenRequest.ends v t 1) (c := fun v t => ExpireDelegationTokenRequest.cutAt v t 0) (fun _ _ _ => rfl) ExpireDelegationTokenRequest.cutsK (c0 := ExpireDelegationTokenRequest.first 0) rfl ExpireDelegationTokenRequest.partsK ExpireDelegationTokenRequest.part_of ExpireDelegationTokenRequest.filled (by decide) (by decide)

/-- message/messages.gen.go:10204-10219 `ExpireDelegationTokenResponse.Decode`, with the receiver kept -/
def ExpireDelegationTokenResponse.decodeK (_version : Int16) : KDec ExpireDelegationTokenResponse :=
    KDec.field Dec.int16 0 (fun t x => { t with ErrorCode := x }) ;|>
    KDec.field Dec.int64 0 (fun t x => { t with ExpiryTimestampMs := x }) ;|>
    KDec.field Dec.int32 0 (fun t x => { t with ThrottleTimeMs := x })

/-- Where the fields of `ExpireDelegationTokenResponse` end. -/
def ExpireDelegationTokenResponse.ends (_version : Int16) (t : ExpireDelegationTokenResponse) : Nat → Nat :=
  Cut.ends 0 [Wire.int16 t.ErrorCode,
    Wire.int64 t.ExpiryTimestampMs,
    Wire.int32 t.ThrottleTimeMs]

/-- What is left of `t` if only its first `n` bytes are there. -/
def ExpireDelegationTokenResponse.cut (version : Int16) (n : Nat) (t : ExpireDelegationTokenResponse) : ExpireDelegationTokenResponse :=
  { ErrorCode := Cut.field n (t.ends version 0) t.ErrorCode 0,
    ExpiryTimestampMs := Cut.field n (t.ends version 1) t.ExpiryTimestampMs 0,
    ThrottleTimeMs := Cut.field n (t.ends version 2) t.ThrottleTimeMs 0 }

/-- The same after the first `k` statements of `Decode`. -/
def ExpireDelegationTokenResponse.cutAt (version : Int16) (t : ExpireDelegationTokenResponse) (k n : Nat) : ExpireDelegationTokenResponse :=
  { ErrorCode := upto k 0 (Cut.field n (t.ends version 0) t.ErrorCode 0) 0,
    ExpiryTimestampMs := upto k 1 (Cut.field n (t.ends version 1) t.ExpiryTimestampMs 0) 0,
    ThrottleTimeMs := upto k 2 (Cut.field n (t.ends version 2) t.ThrottleTimeMs 0) 0 }

/-- The first `k` fields of `y`, and zeros. -/
def ExpireDelegationTokenResponse.first (k : Nat) (y : ExpireDelegationTokenResponse) : ExpireDelegationTokenResponse :=
  { ErrorCode := upto k 0 y.ErrorCode 0,
    ExpiryTimestampMs := upto k 1 y.ExpiryTimestampMs 0,
    ThrottleTimeMs := upto k 2 y.ThrottleTimeMs 0 }

/-- `r` is a beginning of `y`, and zeros. -/
def ExpireDelegationTokenResponse.Part (r y : ExpireDelegationTokenResponse) : Prop :=
  (∃ k, k < 3 ∧ r = y.first k)

/-- `ExpireDelegationTokenResponse` with its receiver kept. -/
def ExpireDelegationTokenResponse.keeps : KeptMsg ExpireDelegationTokenResponse.type := { decode := ExpireDelegationTokenResponse.decodeK, cut := ExpireDelegationTokenResponse.cut, Part := ExpireDelegationTokenResponse.Part }

theorem ExpireDelegationTokenResponse.sameK (version : Int16) : KStep (ExpireDelegationTokenResponse.decodeK version) (ExpireDelegationTokenResponse.decode version) :=
  (KStep.field)
    |>.andThen (KStep.field)
    |>.andThen (KStep.field)
theorem ExpireDelegationTokenResponse.cutsK (version : Int16) (t : ExpireDelegationTokenResponse) (h : t.Fits version) :
    Cuts (ExpireDelegationTokenResponse.decodeK version) 0 (ExpireDelegationTokenResponse.wire version t) (ExpireDelegationTokenResponse.ends version t 2) (ExpireDelegationTokenResponse.cutAt version t 0) (ExpireDelegationTokenResponse.cutAt version t 3) :=
  (.field (reads_int16 t.ErrorCode) (fun _ => rfl) (fun _ => rfl) : Cuts _ 0 _ (ExpireDelegationTokenResponse.ends version t 0) (ExpireDelegationTokenResponse.cutAt version t 0) (ExpireDelegationTokenResponse.cutAt version t 1))
    |>.andThen (.field (reads_int64 t.ExpiryTimestampMs) (fun _ => rfl) (fun _ => rfl) : Cuts _ (ExpireDelegationTokenResponse.ends version t 0) _ (ExpireDelegationTokenResponse.ends version t 1) (ExpireDelegationTokenResponse.cutAt version t 1) (ExpireDelegationTokenResponse.cutAt version t 2))
    |>.andThen (.field (reads_int32 t.ThrottleTimeMs) (fun _ => rfl) (fun _ => rfl) : Cuts _ (ExpireDelegationTokenResponse.ends version t 1) _ (ExpireDelegationTokenResponse.ends version t 2) (ExpireDelegationTokenResponse.cutAt version t 2) (ExpireDelegationTokenResponse.cutAt version t 3))
theorem ExpireDelegationTokenResponse.partsK (version : Int16) : Parts (ExpireDelegationTokenResponse.decodeK version) (ExpireDelegationTokenResponse.first 0) (ExpireDelegationTokenResponse.first 3) (fun r y => (((r = ExpireDelegationTokenResponse.first 0 y) ∨ (r = ExpireDelegationTokenResponse.first 1 y)) ∨ (r = ExpireDelegationTokenResponse.first 2 y))) :=
  (.field Longer.int16 (fun _ => rfl) (fun _ _ => rfl) (fun _ _ => rfl) (fun _ => rfl) : Parts (KDec.field Dec.int16 0 (fun t x => { t with ErrorCode := x })) (ExpireDelegationTokenResponse.first 0) (ExpireDelegationTokenResponse.first 1) (fun r y => r = ExpireDelegationTokenResponse.first 0 y))
    |>.andThen (.field Longer.int64 (fun _ => rfl) (fun _ _ => rfl) (fun _ _ => rfl) (fun _ => rfl) : Parts (KDec.field Dec.int64 0 (fun t x => { t with ExpiryTimestampMs := x })) (ExpireDelegationTokenResponse.first 1) (ExpireDelegationTokenResponse.first 2) (fun r y => r = ExpireDelegationTokenResponse.first 1 y))
    |>.andThen (.field Longer.int32 (fun _ => rfl) (fun _ _ => rfl) (fun _ _ => rfl) (fun _ => rfl) : Parts (KDec.field Dec.int32 0 (fun t x => { t with ThrottleTimeMs := x })) (ExpireDelegationTokenResponse.first 2) (ExpireDelegationTokenResponse.first 3) (fun r y => r = ExpireDelegationTokenResponse.first 2 y))
theorem ExpireDelegationTokenResponse.filled (version : Int16) : FilledStep 14 14 (ExpireDelegationTokenResponse.decode version) :=
  ((FilledStep.field .int16)
    |>.andThen (FilledStep.field .int64)
    |>.andThen (FilledStep.field .int32)).mono (by decide) (by decide)
theorem ExpireDelegationTokenResponse.part_of (r y : ExpireDelegationTokenResponse) (h : (((r = ExpireDelegationTokenResponse.first 0 y) ∨ (r = ExpireDelegationTokenResponse.first 1 y)) ∨ (r = ExpireDelegationTokenResponse.first 2 y))) : ExpireDelegationTokenResponse.Part r y :=
  match h with
    | (.inl (.inl h)) => ⟨0, by decide, h⟩
    | (.inl (.inr h)) => ⟨1, by decide, h⟩
    | (.inr h) => ⟨2, by decide, h⟩
theorem ExpireDelegationTokenResponse.keeps_holds : ExpireDelegationTokenResponse.keeps.Holds ExpireDelegationTokenResponse.layout :=
  KeptMsg.holds ExpireDelegationTokenResponse.lawful ExpireDelegationTokenResponse.sameK (stop := fun v t => ExpireDelegationTokenResponse.ends v t 2) (c := fun v t => ExpireDelegationTokenResponse.cutAt v t 0) (fun _ _ _ => rfl) ExpireDelegationTokenResponse.cutsK (c0 := ExpireDelegationTokenResponse.first 0) rfl ExpireDelegationTokenResponse.partsK ExpireDelegationTokenResponse.part_of ExpireDelegationTokenResponse.filled (by decide) (by decide)

/-- The structures of the ExpireDelegationToken messages. -/
def keptExpireDelegationToken : List (Σ (M : MsgType) (_ : Layout M), KeptMsg M) :=
  [⟨ExpireDelegationTokenRequest.type, ExpireDelegationTokenRequest.layout, ExpireDelegationTokenRequest.keeps⟩,
   ⟨ExpireDelegationTokenResponse.type, ExpireDelegationTokenResponse.layout, ExpireDelegationTokenResponse.keeps⟩]
theorem keptExpireDelegationToken_holds : ∀ p ∈ keptExpireDelegationToken, p.2.2.Holds p.2.1 := by
  unfold keptExpireDelegationToken
  simp only [List.forall_mem_cons]
  exact ⟨ExpireDelegationTokenRequest.keeps_holds, ExpireDelegationTokenResponse.keeps_holds, fun _ h => absurd h (by simp)⟩

end Kafka.Msg
