import Verif.Message.KeptLemmas
import Verif.Gen.Proof.SaslAuthenticate
/-!
Generated by tools/gen_messages.py: what is in the SaslAuthenticate messages after an error.
-/
set_option linter.unusedVariables false
namespace Kafka.Msg

/-- message/messages.gen.go:9609-9616 `SaslAuthenticateRequest.Decode`, with the receiver kept -/
def SaslAuthenticateRequest.decodeK (_version : Int16) : KDec SaslAuthenticateRequest :=
    KDec.field Dec.bytes none (fun t x => { t with AuthBytes := x })

/-- Where the fields of `SaslAuthenticateRequest` end. -/
def SaslAuthenticateRequest.ends (_version : Int16) (t : SaslAuthenticateRequest) : Nat → Nat :=
  Cut.ends 0 [Wire.bytes t.AuthBytes]

/-- What is left of `t` if only its first `n` bytes are there. -/
def SaslAuthenticateRequest.cut (version : Int16) (n : Nat) (t : SaslAuthenticateRequest) : SaslAuthenticateRequest :=
  { AuthBytes := Cut.field n (t.ends version 0) t.AuthBytes.nonNil none }

/-- The same after the first `k` statements of `Decode`. -/
def SaslAuthenticateRequest.cutAt (version : Int16) (t : SaslAuthenticateRequest) (k n : Nat) : SaslAuthenticateRequest :=
  { AuthBytes := upto k 0 (Cut.field n (t.ends version 0) t.AuthBytes.nonNil none) none }

/-- The first `k` fields of `y`, and zeros. -/
def SaslAuthenticateRequest.first (k : Nat) (y : SaslAuthenticateRequest) : SaslAuthenticateRequest :=
  { AuthBytes := upto k 0 y.AuthBytes none }

/-- `r` is a beginning of `y`, and zeros. -/
def SaslAuthenticateRequest.Part (r y : SaslAuthenticateRequest) : Prop :=
  (∃ k, k < 1 ∧ r = y.first k)

/-- `SaslAuthenticateRequest` with its receiver kept. -/
def SaslAuthenticateRequest.keeps : KeptMsg SaslAuthenticateRequest.type := { decode := SaslAuthenticateRequest.decodeK, cut := SaslAuthenticateRequest.cut, Part := SaslAuthenticateRequest.Part }

theorem SaslAuthenticateRequest.sameK (version : Int16) : KStep (SaslAuthenticateRequest.decodeK version) (SaslAuthenticateRequest.decode version) :=
  KStep.field
theorem SaslAuthenticateRequest.cutsK (version : Int16) (t : SaslAuthenticateRequest) (h : t.Fits version) :
    Cuts (SaslAuthenticateRequest.decodeK version) 0 (SaslAuthenticateRequest.wire version t) (SaslAuthenticateRequest.ends version t 0) (SaslAuthenticateRequest.cutAt version t 0) (SaslAuthenticateRequest.cutAt version t 1) :=
  (.field (reads_bytes h.AuthBytes) (fun _ => rfl) (fun _ => rfl) : Cuts _ 0 _ (SaslAuthenticateRequest.ends version t 0) (SaslAuthenticateRequest.cutAt version t 0) (SaslAuthenticateRequest.cutAt version t 1))
theorem SaslAuthenticateRequest.partsK (version : Int16) : Parts (SaslAuthenticateRequest.decodeK version) (SaslAuthenticateRequest.first 0) (SaslAuthenticateRequest.first 1) (fun r y => (r = SaslAuthenticateRequest.first 0 y)) :=
  (.field Longer.bytes (fun _ => rfl) (fun _ _ => rfl) (fun _ _ => rfl) (fun _ => rfl) : Parts (KDec.field Dec.bytes none (fun t x => { t with AuthBytes := x })) (SaslAuthenticateRequest.first 0) (SaslAuthenticateRequest.first 1) (fun r y => r = SaslAuthenticateRequest.first 0 y))
theorem SaslAuthenticateRequest.filled (version : Int16) : FilledStep 4 2147483652 (SaslAuthenticateRequest.decode version) :=
  (FilledStep.field .bytes).mono (by decide) (by decide)
theorem SaslAuthenticateRequest.part_of (r y : SaslAuthenticateRequest) (h : (r = SaslAuthenticateRequest.first 0 y)) : SaslAuthenticateRequest.Part r y :=
  match h with
    | h => ⟨0, by decide, h⟩
theorem SaslAuthenticateRequest.keeps_holds : SaslAuthenticateRequest.keeps.Holds SaslAuthenticateRequest.layout :=
  KeptMsg.holds SaslAuthenticateRequest.lawful SaslAuthenticateRequest.sameK (stop := fun v t => SaslAuthenticateRequest.ends v t 0) (c := fun v t => SaslAuthenticateRequest.cutAt v t 0) (fun _ _ _ => rfl) SaslAuthenticateRequest.cutsK (c0 := SaslAuthenticateRequest.first 0) rfl SaslAuthenticateRequest.partsK SaslAuthenticateRequest.part_of SaslAuthenticateRequest.filled (by decide) (by decide)

/-- message/messages.gen.go:9649-9670 `SaslAuthenticateResponse.Decode`, with the receiver kept -/
def SaslAuthenticateResponse.decodeK (version : Int16) : KDec SaslAuthenticateResponse :=
    KDec.field Dec.int16 0 (fun t x => { t with ErrorCode := x }) ;|>
    KDec.field Dec.string [] (fun t x => { t with ErrorMessage := x }) ;|>
    KDec.field Dec.bytes none (fun t x => { t with AuthBytes := x }) ;|>
    KDec.onlyIf (version ≥ 1) (KDec.field Dec.int64 0 (fun t x => { t with SessionLifetimeMs := x }))

/-- Where the fields of `SaslAuthenticateResponse` end. -/
def SaslAuthenticateResponse.ends (version : Int16) (t : SaslAuthenticateResponse) : Nat → Nat :=
  Cut.ends 0 [Wire.int16 t.ErrorCode,
    Wire.string t.ErrorMessage,
    Wire.bytes t.AuthBytes,
    Wire.when (version ≥ 1) (Wire.int64 t.SessionLifetimeMs)]

/-- What is left of `t` if only its first `n` bytes are there. -/
def SaslAuthenticateResponse.cut (version : Int16) (n : Nat) (t : SaslAuthenticateResponse) : SaslAuthenticateResponse :=
  { ErrorCode := Cut.field n (t.ends version 0) t.ErrorCode 0,
    ErrorMessage := Cut.field n (t.ends version 1) t.ErrorMessage [],
    AuthBytes := Cut.field n (t.ends version 2) t.AuthBytes.nonNil none,
    SessionLifetimeMs := Cut.gate (version ≥ 1) (Cut.field n (t.ends version 3) t.SessionLifetimeMs 0) 0 }

/-- The same after the first `k` statements of `Decode`. -/
def SaslAuthenticateResponse.cutAt (version : Int16) (t : SaslAuthenticateResponse) (k n : Nat) : SaslAuthenticateResponse :=
  { ErrorCode := upto k 0 (Cut.field n (t.ends version 0) t.ErrorCode 0) 0,
    ErrorMessage := upto k 1 (Cut.field n (t.ends version 1) t.ErrorMessage []) [],
    AuthBytes := upto k 2 (Cut.field n (t.ends version 2) t.AuthBytes.nonNil none) none,
    SessionLifetimeMs := upto k 3 (Cut.gate (version ≥ 1) (Cut.field n (t.ends version 3) t.SessionLifetimeMs 0) 0) 0 }

/-- The first `k` fields of `y`, and zeros. -/
def SaslAuthenticateResponse.first (k : Nat) (y : SaslAuthenticateResponse) : SaslAuthenticateResponse :=
  { ErrorCode := upto k 0 y.ErrorCode 0,
    ErrorMessage := upto k 1 y.ErrorMessage [],
    AuthBytes := upto k 2 y.AuthBytes none,
    SessionLifetimeMs := upto k 3 y.SessionLifetimeMs 0 }

/-- `r` is a beginning of `y`, and zeros. -/
def SaslAuthenticateResponse.Part (r y : SaslAuthenticateResponse) : Prop :=
  (∃ k, k < 4 ∧ r = y.first k)

/-- `SaslAuthenticateResponse` with its receiver kept. -/
def SaslAuthenticateResponse.keeps : KeptMsg SaslAuthenticateResponse.type := { decode := SaslAuthenticateResponse.decodeK, cut := SaslAuthenticateResponse.cut, Part := SaslAuthenticateResponse.Part }

theorem SaslAuthenticateResponse.sameK (version : Int16) : KStep (SaslAuthenticateResponse.decodeK version) (SaslAuthenticateResponse.decode version) :=
  (KStep.field)
    |>.andThen (KStep.field)
    |>.andThen (KStep.field)
    |>.andThen (KStep.onlyIf (KStep.field))
theorem SaslAuthenticateResponse.cutsK (version : Int16) (t : SaslAuthenticateResponse) (h : t.Fits version) :
    Cuts (SaslAuthenticateResponse.decodeK version) 0 (SaslAuthenticateResponse.wire version t) (SaslAuthenticateResponse.ends version t 3) (SaslAuthenticateResponse.cutAt version t 0) (SaslAuthenticateResponse.cutAt version t 4) :=
  (.field (reads_int16 t.ErrorCode) (fun _ => rfl) (fun _ => rfl) : Cuts _ 0 _ (SaslAuthenticateResponse.ends version t 0) (SaslAuthenticateResponse.cutAt version t 0) (SaslAuthenticateResponse.cutAt version t 1))
    |>.andThen (.field (reads_string h.ErrorMessage) (fun _ => rfl) (fun _ => rfl) : Cuts _ (SaslAuthenticateResponse.ends version t 0) _ (SaslAuthenticateResponse.ends version t 1) (SaslAuthenticateResponse.cutAt version t 1) (SaslAuthenticateResponse.cutAt version t 2))
    |>.andThen (.field (reads_bytes h.AuthBytes) (fun _ => rfl) (fun _ => rfl) : Cuts _ (SaslAuthenticateResponse.ends version t 1) _ (SaslAuthenticateResponse.ends version t 2) (SaslAuthenticateResponse.cutAt version t 2) (SaslAuthenticateResponse.cutAt version t 3))
    |>.andThen (.optField (fun _ => reads_int64 t.SessionLifetimeMs) (fun _ => rfl) (fun _ => rfl) : Cuts _ (SaslAuthenticateResponse.ends version t 2) _ (SaslAuthenticateResponse.ends version t 3) (SaslAuthenticateResponse.cutAt version t 3) (SaslAuthenticateResponse.cutAt version t 4))
theorem SaslAuthenticateResponse.partsK (version : Int16) : Parts (SaslAuthenticateResponse.decodeK version) (SaslAuthenticateResponse.first 0) (SaslAuthenticateResponse.first 4) (fun r y => ((((r = SaslAuthenticateResponse.first 0 y) ∨ (r = SaslAuthenticateResponse.first 1 y)) ∨ (r = SaslAuthenticateResponse.first 2 y)) ∨ (r = SaslAuthenticateResponse.first 3 y))) :=
  (.field Longer.int16 (fun _ => rfl) (fun _ _ => rfl) (fun _ _ => rfl) (fun _ => rfl) : Parts (KDec.field Dec.int16 0 (fun t x => { t with ErrorCode := x })) (SaslAuthenticateResponse.first 0) (SaslAuthenticateResponse.first 1) (fun r y => r = SaslAuthenticateResponse.first 0 y))
    |>.andThen (.field Longer.string (fun _ => rfl) (fun _ _ => rfl) (fun _ _ => rfl) (fun _ => rfl) : Parts (KDec.field Dec.string [] (fun t x => { t with ErrorMessage := x })) (SaslAuthenticateResponse.first 1) (SaslAuthenticateResponse.first 2) (fun r y => r = SaslAuthenticateResponse.first 1 y))
    |>.andThen (.field Longer.bytes (fun _ => rfl) (fun _ _ => rfl) (fun _ _ => rfl) (fun _ => rfl) : Parts (KDec.field Dec.bytes none (fun t x => { t with AuthBytes := x })) (SaslAuthenticateResponse.first 2) (SaslAuthenticateResponse.first 3) (fun r y => r = SaslAuthenticateResponse.first 2 y))
    |>.andThen (.onlyIf (.field Longer.int64 (fun _ => rfl) (fun _ _ => rfl) (fun _ _ => rfl) (fun _ => rfl)) (fun _ => rfl) : Parts (KDec.onlyIf (version ≥ 1) (KDec.field Dec.int64 0 (fun t x => { t with SessionLifetimeMs := x }))) (SaslAuthenticateResponse.first 3) (SaslAuthenticateResponse.first 4) (fun r y => r = SaslAuthenticateResponse.first 3 y))
theorem SaslAuthenticateResponse.filled (version : Int16) : FilledStep 16 2147483660 (SaslAuthenticateResponse.decode version) :=
  ((FilledStep.field .int16)
    |>.andThen (FilledStep.field .string)
    |>.andThen (FilledStep.field .bytes)
    |>.andThen (FilledStep.onlyIf (FilledStep.field .int64))).mono (by decide) (by decide)
theorem SaslAuthenticateResponse.part_of (r y : SaslAuthenticateResponse) (h : ((((r = SaslAuthenticateResponse.first 0 y) ∨ (r = SaslAuthenticateResponse.first 1 y)) ∨ (r = SaslAuthenticateResponse.first 2 y)) ∨ (r = SaslAuthenticateResponse.first 3 y))) : SaslAuthenticateResponse.Part r y :=
  match h with
    | (.inl (.inl (.inl h))) => ⟨0, by decide, h⟩
    | (.inl (.inl (.inr h))) => ⟨1, by decide, h⟩
    | (.inl (.inr h)) => ⟨2, by decide, h⟩
    | (.inr h) => ⟨3, by decide, h⟩
theorem SaslAuthenticateResponse.keeps_holds : SaslAuthenticateResponse.keeps.Holds SaslAuthenticateResponse.layout :=
  KeptMsg.holds SaslAuthenticateResponse.lawful SaslAuthenticateResponse.sameK (stop := fun v t => SaslAuthenticateResponse.ends v t 3) (c := fun v t => SaslAuthenticateResponse.cutAt v t 0) (fun _ _ _ => rfl) SaslAuthenticateResponse.cutsK (c0 := SaslAuthenticateResponse.first 0) rfl SaslAuthenticateResponse.partsK SaslAuthenticateResponse.part_of SaslAuthenticateResponse.filled (by decide) (by decide)

/-- The structures of the SaslAuthenticate messages. -/
def keptSaslAuthenticate : List (Σ (M : MsgType) (_ : Layout M), KeptMsg M) :=
  [⟨SaslAuthenticateRequest.type, SaslAuthenticateRequest.layout, SaslAuthenticateRequest.keeps⟩,
   ⟨SaslAuthenticateResponse.type, SaslAuthenticateResponse.layout, SaslAuthenticateResponse.keeps⟩]
theorem keptSaslAuthenticate_holds : ∀ p ∈ keptSaslAuthenticate, p.2.2.Holds p.2.1 := by
  unfold keptSaslAuthenticate
  simp only [List.forall_mem_cons]
  exact ⟨SaslAuthenticateRequest.keeps_holds, SaslAuthenticateResponse.keeps_holds, fun _ h => absurd h (by simp)⟩

end Kafka.Msg
