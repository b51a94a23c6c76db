import Verif.Message.KeptLemmas
import Verif.Gen.Proof.InitProducerId
/-!
Generated by tools/gen_messages.py: what is in the InitProducerId messages after an error.
-/
set_option linter.unusedVariables false
namespace Kafka.Msg

/-- message/messages.gen.go:6252-6263 `InitProducerIdRequest.Decode`, with the receiver kept -/
def InitProducerIdRequest.decodeK (_version : Int16) : KDec InitProducerIdRequest :=
    KDec.field Dec.string [] (fun t x => { t with TransactionalId := x }) ;|>
    KDec.field Dec.int32 0 (fun t x => { t with TransactionTimeoutMs := x })

/-- Where the fields of `InitProducerIdRequest` end. -/
def InitProducerIdRequest.ends (_version : Int16) (t : InitProducerIdRequest) : Nat → Nat :=
  Cut.ends 0 [Wire.string t.TransactionalId,
    Wire.int32 t.TransactionTimeoutMs]

/-- What is left of `t` if only its first `n` bytes are there. -/
def InitProducerIdRequest.cut (version : Int16) (n : Nat) (t : InitProducerIdRequest) : InitProducerIdRequest :=
  { TransactionalId := Cut.field n (t.ends version 0) t.TransactionalId [],
    TransactionTimeoutMs := Cut.field n (t.ends version 1) t.TransactionTimeoutMs 0 }

/-- The same after the first `k` statements of `Decode`. -/
def InitProducerIdRequest.cutAt (version : Int16) (t : InitProducerIdRequest) (k n : Nat) : InitProducerIdRequest :=
  { TransactionalId := upto k 0 (Cut.field n (t.ends version 0) t.TransactionalId []) [],
    TransactionTimeoutMs := upto k 1 (Cut.field n (t.ends version 1) t.TransactionTimeoutMs 0) 0 }

/-- The first `k` fields of `y`, and zeros. -/
def InitProducerIdRequest.first (k : Nat) (y : InitProducerIdRequest) : InitProducerIdRequest :=
  { TransactionalId := upto k 0 y.TransactionalId [],
    TransactionTimeoutMs := upto k 1 y.TransactionTimeoutMs 0 }

/-- `r` is a beginning of `y`, and zeros. -/
def InitProducerIdRequest.Part (r y : InitProducerIdRequest) : Prop :=
  (∃ k, k < 2 ∧ r = y.first k)

/-- `InitProducerIdRequest` with its receiver kept. -/
def InitProducerIdRequest.keeps : KeptMsg InitProducerIdRequest.type := { decode := InitProducerIdRequest.decodeK, cut := InitProducerIdRequest.cut, Part := InitProducerIdRequest.Part }

theorem InitProducerIdRequest.sameK (version : Int16) : KStep (InitProducerIdRequest.decodeK version) (InitProducerIdRequest.decode version) :=
  (KStep.field)
    |>.andThen (KStep.field)
theorem InitProducerIdRequest.cutsK (version : Int16) (t : InitProducerIdRequest) (h : t.Fits version) :
    Cuts (InitProducerIdRequest.decodeK version) 0 (InitProducerIdRequest.wire version t) (InitProducerIdRequest.ends version t 1) (InitProducerIdRequest.cutAt version t 0) (InitProducerIdRequest.cutAt version t 2) :=
  (.field (reads_string h.TransactionalId) (fun _ => rfl) (fun _ => rfl) : Cuts _ 0 _ (InitProducerIdRequest.ends version t 0) (InitProducerIdRequest.cutAt version t 0) (InitProducerIdRequest.cutAt version t 1))
    |>.andThen (.field (reads_int32 t.TransactionTimeoutMs) (fun _ => rfl) (fun _ => rfl) : Cuts _ (InitProducerIdRequest.ends version t 0) _ (InitProducerIdRequest.ends version t 1) (InitProducerIdRequest.cutAt version t 1) (InitProducerIdRequest.cutAt version t 2))
theorem InitProducerIdRequest.partsK (version : Int16) : Parts (InitProducerIdRequest.decodeK version) (InitProducerIdRequest.first 0) (InitProducerIdRequest.first 2) (fun r y => ((r = InitProducerIdRequest.first 0 y) ∨ (r = InitProducerIdRequest.first 1 y))) :=
  (.field Longer.string (fun _ => rfl) (fun _ _ => rfl) (fun _ _ => rfl) (fun _ => rfl) : Parts (KDec.field Dec.string [] (fun t x => { t with TransactionalId := x })) (InitProducerIdRequest.first 0) (InitProducerIdRequest.first 1) (fun r y => r = InitProducerIdRequest.first 0 y))
    |>.andThen (.field Longer.int32 (fun _ => rfl) (fun _ _ => rfl) (fun _ _ => rfl) (fun _ => rfl) : Parts (KDec.field Dec.int32 0 (fun t x => { t with TransactionTimeoutMs := x })) (InitProducerIdRequest.first 1) (InitProducerIdRequest.first 2) (fun r y => r = InitProducerIdRequest.first 1 y))
theorem InitProducerIdRequest.filled (version : Int16) : FilledStep 6 32774 (InitProducerIdRequest.decode version) :=
  ((FilledStep.field .string)
    |>.andThen (FilledStep.field .int32)).mono (by decide) (by decide)
theorem InitProducerIdRequest.part_of (r y : InitProducerIdRequest) (h : ((r = InitProducerIdRequest.first 0 y) ∨ (r = InitProducerIdRequest.first 1 y))) : InitProducerIdRequest.Part r y :=
  match h with
    | (.inl h) => ⟨0, by decide, h⟩
    | (.inr h) => ⟨1, by decide, h⟩
theorem InitProducerIdRequest.keeps_holds : InitProducerIdRequest.keeps.Holds InitProducerIdRequest.layout :=
  KeptMsg.holds InitProducerIdRequest.lawful InitProducerIdRequest.sameK (stop := fun v t => InitProducerIdRequest.ends v t 1) (c := fun v t => InitProducerIdRequest.cutAt v t 0) (fun _ _ _ => rfl) InitProducerIdRequest.cutsK (c0 := InitProducerIdRequest.first 0) rfl InitProducerIdRequest.partsK InitProducerIdRequest.part_of InitProducerIdRequest.filled (by decide) (by decide)

/-- message/messages.gen.go:6292-6311 `InitProducerIdResponse.Decode`, with the receiver kept -/
def InitProducerIdResponse.decodeK (_version : Int16) : KDec InitProducerIdResponse :=
    KDec.field Dec.int32 0 (fun t x => { t with ThrottleTimeMs := x }) ;|>
    KDec.field Dec.int16 0 (fun t x => { t with ErrorCode := x }) ;|>
    KDec.field Dec.int64 0 (fun t x => { t with ProducerId := x }) ;|>
    KDec.field Dec.int16 0 (fun t x => { t with ProducerEpoch := x })

/-- Where the fields of `InitProducerIdResponse` end. -/
def InitProducerIdResponse.ends (_version : Int16) (t : InitProducerIdResponse) : Nat → Nat :=
  Cut.ends 0 [Wire.int32 t.ThrottleTimeMs,
    Wire.int16 t.ErrorCode,
    Wire.int64 t.ProducerId,
    Wire.int16 t.ProducerEpoch]

/-- What is left of `t` if only its first `n` bytes are there. -/
def InitProducerIdResponse.cut (version : Int16) (n : Nat) (t : InitProducerIdResponse) : InitProducerIdResponse :=
  { ThrottleTimeMs := Cut.field n (t.ends version 0) t.ThrottleTimeMs 0,
    ErrorCode := Cut.field n (t.ends version 1) t.ErrorCode 0,
    ProducerId := Cut.field n (t.ends version 2) t.ProducerId 0,
    ProducerEpoch := Cut.field n (t.ends version 3) t.ProducerEpoch 0 }

/-- The same after the first `k` statements of `Decode`. -/
def InitProducerIdResponse.cutAt (version : Int16) (t : InitProducerIdResponse) (k n : Nat) : InitProducerIdResponse :=
  { ThrottleTimeMs := upto k 0 (Cut.field n (t.ends version 0) t.ThrottleTimeMs 0) 0,
    ErrorCode := upto k 1 (Cut.field n (t.ends version 1) t.ErrorCode 0) 0,
    ProducerId := upto k 2 (Cut.field n (t.ends version 2) t.ProducerId 0) 0,
    ProducerEpoch := upto k 3 (Cut.field n (t.ends version 3) t.ProducerEpoch 0) 0 }

/-- The first `k` fields of `y`, and zeros. -/
def InitProducerIdResponse.first (k : Nat) (y : InitProducerIdResponse) : InitProducerIdResponse :=
  { ThrottleTimeMs := upto k 0 y.ThrottleTimeMs 0,
    ErrorCode := upto k 1 y.ErrorCode 0,
    ProducerId := upto k 2 y.ProducerId 0,
    ProducerEpoch := upto k 3 y.ProducerEpoch 0 }

/-- `r` is a beginning of `y`, and zeros. -/
def InitProducerIdResponse.Part (r y : InitProducerIdResponse) : Prop :=
  (∃ k, k < 4 ∧ r = y.first k)

/-- `InitProducerIdResponse` with its receiver kept. -/
def InitProducerIdResponse.keeps : KeptMsg InitProducerIdResponse.type := { decode := InitProducerIdResponse.decodeK, cut := InitProducerIdResponse.cut, Part := InitProducerIdResponse.Part }

theorem InitProducerIdResponse.sameK (version : Int16) : KStep (InitProducerIdResponse.decodeK version) (InitProducerIdResponse.decode version) :=
  (KStep.field)
    |>.andThen (KStep.field)
    |>.andThen (KStep.field)
    |>.andThen (KStep.field)
theorem InitProducerIdResponse.cutsK (version : Int16) (t : InitProducerIdResponse) (h : t.Fits version) :
    Cuts (InitProducerIdResponse.decodeK version) 0 (InitProducerIdResponse.wire version t) (InitProducerIdResponse.ends version t 3) (InitProducerIdResponse.cutAt version t 0) (InitProducerIdResponse.cutAt version t 4) :=
  (.field (reads_int32 t.ThrottleTimeMs) (fun _ => rfl) (fun _ => rfl) : Cuts _ 0 _ (InitProducerIdResponse.ends version t 0) (InitProducerIdResponse.cutAt version t 0) (InitProducerIdResponse.cutAt version t 1))
    |>.andThen (.field (reads_int16 t.ErrorCode) (fun _ => rfl) (fun _ => rfl) : Cuts _ (InitProducerIdResponse.ends version t 0) _ (InitProducerIdResponse.ends version t 1) (InitProducerIdResponse.cutAt version t 1) (InitProducerIdResponse.cutAt version t 2))
    |>.andThen (.field (reads_int64 t.ProducerId) (fun _ => rfl) (fun _ => rfl) : Cuts _ (InitProducerIdResponse.ends version t 1) _ (InitProducerIdResponse.ends version t 2) (InitProducerIdResponse.cutAt version t 2) (InitProducerIdResponse.cutAt version t 3))
    |>.andThen (.field (reads_int16 t.ProducerEpoch) (fun _ => rfl) (fun _ => rfl) : Cuts _ (InitProducerIdResponse.ends version t 2) _ (InitProducerIdResponse.ends version t 3) (InitProducerIdResponse.cutAt version t 3) (InitProducerIdResponse.cutAt version t 4))
theorem InitProducerIdResponse.partsK (version : Int16) : Parts (InitProducerIdResponse.decodeK version) (InitProducerIdResponse.first 0) (InitProducerIdResponse.first 4) (fun r y => ((((r = InitProducerIdResponse.first 0 y) ∨ (r = InitProducerIdResponse.first 1 y)) ∨ (r = InitProducerIdResponse.first 2 y)) ∨ (r = InitProducerIdResponse.first 3 y))) :=
  (.field Longer.int32 (fun _ => rfl) (fun _ _ => rfl) (fun _ _ => rfl) (fun _ => rfl) : Parts (KDec.field Dec.int32 0 (fun t x => { t with ThrottleTimeMs := x })) (InitProducerIdResponse.first 0) (InitProducerIdResponse.first 1) (fun r y => r = InitProducerIdResponse.first 0 y))
    |>.andThen (.field Longer.int16 (fun _ => rfl) (fun _ _ => rfl) (fun _ _ => rfl) (fun _ => rfl) : Parts (KDec.field Dec.int16 0 (fun t x => { t with ErrorCode := x })) (InitProducerIdResponse.first 1) (InitProducerIdResponse.first 2) (fun r y => r = InitProducerIdResponse.first 1 y))
    |>.andThen (.field Longer.int64 (fun _ => rfl) (fun _ _ => rfl) (fun _ _ => rfl) (fun _ => rfl) : Parts (KDec.field Dec.int64 0 (fun t x => { t with ProducerId := x })) (InitProducerIdResponse.first 2) (InitProducerIdResponse.first 3) (fun r y => r = InitProducerIdResponse.first 2 y))
    |>.andThen (.field Longer.int16 (fun _ => rfl) (fun _ _ => rfl) (fun _ _ => rfl) (fun _ => rfl) : Parts (KDec.field Dec.int16 0 (fun t x => { t with ProducerEpoch := x })) (InitProducerIdResponse.first 3) (InitProducerIdResponse.first 4) (fun r y => r = InitProducerIdResponse.first 3 y))
theorem InitProducerIdResponse.filled (version : Int16) : FilledStep 16 16 (InitProducerIdResponse.decode version) :=
  ((FilledStep.field .int32)
    |>.andThen (FilledStep.field .int16)
    |>.andThen (FilledStep.field .int64)
    |>.andThen (FilledStep.field .int16)).mono (by decide) (by decide)
theorem InitProducerIdResponse.part_of (r y : InitProducerIdResponse) (h : ((((r = InitProducerIdResponse.first 0 y) ∨ (r = InitProducerIdResponse.first 1 y)) ∨ (r = InitProducerIdResponse.first 2 y)) ∨ (r = InitProducerIdResponse.first 3 y))) : InitProducerIdResponse.Part r y :=
  match h with
    | (.inl (.inl (.inl h))) => ⟨0, by decide, h⟩
    | (.inl (.inl (.inr h))) => ⟨1, by decide, h⟩
    | (.inl (.inr h)) => ⟨2, by decide, h⟩
    | (.inr h) => ⟨3, by decide, h⟩
theorem InitProducerIdResponse.keeps_holds : InitProducerIdResponse.keeps.Holds InitProducerIdResponse.layout :=
  KeptMsg.holds InitProducerIdResponse.lawful InitProducerIdResponse.sameK (stop := fun v t => InitProducerIdResponse.ends v t 3) (c := fun v t => InitProducerIdResponse.cutAt v t 0) (fun _ _ _ => rfl) InitProducerIdResponse.cutsK (c0 := InitProducerIdResponse.first 0) rfl InitProducerIdResponse.partsK InitProducerIdResponse.part_of InitProducerIdResponse.filled (by decide) (by decide)

/-- The structures of the InitProducerId messages. -/
def keptInitProducerId : List (Σ (M : MsgType) (_ : Layout M), KeptMsg M) :=
  [⟨InitProducerIdRequest.type, InitProducerIdRequest.layout, InitProducerIdRequest.keeps⟩,
   ⟨InitProducerIdResponse.type, InitProducerIdResponse.layout, InitProducerIdResponse.keeps⟩]
theorem keptInitProducerId_holds : ∀ p ∈ keptInitProducerId, p.2.2.Holds p.2.1 := by
  unfold keptInitProducerId
  simp only [List.forall_mem_cons]
  exact ⟨InitProducerIdRequest.keeps_holds, InitProducerIdResponse.keeps_holds, fun _ h => absurd h (by simp)⟩

end Kafka.Msg
