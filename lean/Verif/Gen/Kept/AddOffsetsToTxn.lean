import Verif.Message.KeptLemmas
import Verif.Gen.Proof.AddOffsetsToTxn
/-!
Generated by tools/gen_messages.py: what is in the AddOffsetsToTxn messages after an error.
-/
set_option linter.unusedVariables false
namespace Kafka.Msg

/-- message/messages.gen.go:6885-6904 `AddOffsetsToTxnRequest.Decode`, with the receiver kept -/
def AddOffsetsToTxnRequest.decodeK (_version : Int16) : KDec AddOffsetsToTxnRequest :=
    KDec.field Dec.string [] (fun t x => { t with TransactionalId := x }) ;|>
    KDec.field Dec.int64 0 (fun t x => { t with ProducerId := x }) ;|>
    KDec.field Dec.int16 0 (fun t x => { t with ProducerEpoch := x }) ;|>
    KDec.field Dec.string [] (fun t x => { t with GroupId := x })

/-- Where the fields of `AddOffsetsToTxnRequest` end. -/
def AddOffsetsToTxnRequest.ends (_version : Int16) (t : AddOffsetsToTxnRequest) : Nat → Nat :=
  Cut.ends 0 [Wire.string t.TransactionalId,
    Wire.int64 t.ProducerId,
    Wire.int16 t.ProducerEpoch,
    Wire.string t.GroupId]

/-- What is left of `t` if only its first `n` bytes are there. -/
def AddOffsetsToTxnRequest.cut (version : Int16) (n : Nat) (t : AddOffsetsToTxnRequest) : AddOffsetsToTxnRequest :=
  { TransactionalId := Cut.field n (t.ends version 0) t.TransactionalId [],
    ProducerId := Cut.field n (t.ends version 1) t.ProducerId 0,
    ProducerEpoch := Cut.field n (t.ends version 2) t.ProducerEpoch 0,
    GroupId := Cut.field n (t.ends version 3) t.GroupId [] }

/-- The same after the first `k` statements of `Decode`. -/
def AddOffsetsToTxnRequest.cutAt (version : Int16) (t : AddOffsetsToTxnRequest) (k n : Nat) : AddOffsetsToTxnRequest :=
  { TransactionalId := upto k 0 (Cut.field n (t.ends version 0) t.TransactionalId []) [],
    ProducerId := upto k 1 (Cut.field n (t.ends version 1) t.ProducerId 0) 0,
    ProducerEpoch := upto k 2 (Cut.field n (t.ends version 2) t.ProducerEpoch 0) 0,
    GroupId := upto k 3 (Cut.field n (t.ends version 3) t.GroupId []) [] }

/-- The first `k` fields of `y`, and zeros. -/
def AddOffsetsToTxnRequest.first (k : Nat) (y : AddOffsetsToTxnRequest) : AddOffsetsToTxnRequest :=
  { TransactionalId := upto k 0 y.TransactionalId [],
    ProducerId := upto k 1 y.ProducerId 0,
    ProducerEpoch := upto k 2 y.ProducerEpoch 0,
    GroupId := upto k 3 y.GroupId [] }

/-- `r` is a beginning of `y`, and zeros. -/
def AddOffsetsToTxnRequest.Part (r y : AddOffsetsToTxnRequest) : Prop :=
  (∃ k, k < 4 ∧ r = y.first k)

/-- `AddOffsetsToTxnRequest` with its receiver kept. -/
def AddOffsetsToTxnRequest.keeps : KeptMsg AddOffsetsToTxnRequest.type := { decode := AddOffsetsToTxnRequest.decodeK, cut := AddOffsetsToTxnRequest.cut, Part := AddOffsetsToTxnRequest.Part }

theorem AddOffsetsToTxnRequest.sameK (version : Int16) : KStep (AddOffsetsToTxnRequest.decodeK version) (AddOffsetsToTxnRequest.decode version) :=
  (KStep.field)
    |>.andThen (KStep.field)
    |>.andThen (KStep.field)
    |>.andThen (KStep.field)
theorem AddOffsetsToTxnRequest.cutsK (version : Int16) (t : AddOffsetsToTxnRequest) (h : t.Fits version) :
    Cuts (AddOffsetsToTxnRequest.decodeK version) 0 (AddOffsetsToTxnRequest.wire version t) (AddOffsetsToTxnRequest.ends version t 3) (AddOffsetsToTxnRequest.cutAt version t 0) (AddOffsetsToTxnRequest.cutAt version t 4) :=
  (.field (reads_string h.TransactionalId) (fun _ => rfl) (fun _ => rfl) : Cuts _ 0 _ (AddOffsetsToTxnRequest.ends version t 0) (AddOffsetsToTxnRequest.cutAt version t 0) (AddOffsetsToTxnRequest.cutAt version t 1))
    |>.andThen (.field (reads_int64 t.ProducerId) (fun _ => rfl) (fun _ => rfl) : Cuts _ (AddOffsetsToTxnRequest.ends version t 0) _ (AddOffsetsToTxnRequest.ends version t 1) (AddOffsetsToTxnRequest.cutAt version t 1) (AddOffsetsToTxnRequest.cutAt version t 2))
    |>.andThen (.field (reads_int16 t.ProducerEpoch) (fun _ => rfl) (fun _ => rfl) : Cuts _ (AddOffsetsToTxnRequest.ends version t 1) _ (AddOffsetsToTxnRequest.ends version t 2) (AddOffsetsToTxnRequest.cutAt version t 2) (AddOffsetsToTxnRequest.cutAt version t 3))
    |>.andThen (.field (reads_string h.GroupId) (fun _ => rfl) (fun _ => rfl) : Cuts _ (AddOffsetsToTxnRequest.ends version t 2) _ (AddOffsetsToTxnRequest.ends version t 3) (AddOffsetsToTxnRequest.cutAt version t 3) (AddOffsetsToTxnRequest.cutAt version t 4))
theorem AddOffsetsToTxnRequest.partsK (version : Int16) : Parts (AddOffsetsToTxnRequest.decodeK version) (AddOffsetsToTxnRequest.first 0) (AddOffsetsToTxnRequest.first 4) (fun r y => ((((r = AddOffsetsToTxnRequest.first 0 y) ∨ (r = AddOffsetsToTxnRequest.first 1 y)) ∨ (r = AddOffsetsToTxnRequest.first 2 y)) ∨ (r = AddOffsetsToTxnRequest.first 3 y))) :=
  (.field Longer.string (fun _ => rfl) (fun _ _ => rfl) (fun _ _ => rfl) (fun _ => rfl) : Parts (KDec.field Dec.string [] (fun t x => { t with TransactionalId := x })) (AddOffsetsToTxnRequest.first 0) (AddOffsetsToTxnRequest.first 1) (fun r y => r = AddOffsetsToTxnRequest.first 0 y))
    |>.andThen (.field Longer.int64 (fun _ => rfl) (fun _ _ => rfl) (fun _ _ => rfl) (fun _ => rfl) : Parts (KDec.field Dec.int64 0 (fun t x => { t with ProducerId := x })) (AddOffsetsToTxnRequest.first 1) (AddOffsetsToTxnRequest.first 2) (fun r y => r = AddOffsetsToTxnRequest.first 1 y))
    |>.andThen (.field Longer.int16 (fun _ => rfl) (fun _ _ => rfl) (fun _ _ => rfl) (fun _ => rfl) : Parts (KDec.field Dec.int16 0 (fun t x => { t with ProducerEpoch := x })) (AddOffsetsToTxnRequest.first 2) (AddOffsetsToTxnRequest.first 3) (fun r y => r = AddOffsetsToTxnRequest.first 2 y))
    |>.andThen (.field Longer.string (fun _ => rfl) (fun _ _ => rfl) (fun _ _ => rfl) (fun _ => rfl) : Parts (KDec.field Dec.string [] (fun t x => { t with GroupId := x })) (AddOffsetsToTxnRequest.first 3) (AddOffsetsToTxnRequest.first 4) (fun r y => r = AddOffsetsToTxnRequest.first 3 y))
theorem AddOffsetsToTxnRequest.filled (version : Int16) : FilledStep 14 32782 (AddOffsetsToTxnRequest.decode version) :=
  ((FilledStep.field .string)
    |>.andThen (FilledStep.field .int64)
    |>.andThen (FilledStep.field .int16)
    |>.andThen (FilledStep.field .string)).mono (by decide) (by decide)
theorem AddOffsetsToTxnRequest.part_of (r y : AddOffsetsToTxnRequest) (h : ((((r = AddOffsetsToTxnRequest.first 0 y) ∨ (r = AddOffsetsToTxnRequest.first 1 y)) ∨ (r = AddOffsetsToTxnRequest.first 2 y)) ∨ (r = AddOffsetsToTxnRequest.first 3 y))) : AddOffsetsToTxnRequest.Part r y :=
  match h with
    | (.inl (.inl (.inl h))) => ⟨0, by decide, h⟩
    | (.inl (.inl (.inr h))) => ⟨1, by decide, h⟩
    | (.inl (.inr h)) => ⟨2, by decide, h⟩
    | (.inr h) => ⟨3, by decide, h⟩
theorem AddOffsetsToTxnRequest.keeps_holds : AddOffsetsToTxnRequest.keeps.Holds AddOffsetsToTxnRequest.layout :=
  KeptMsg.holds AddOffsetsToTxnRequest.lawful AddOffsetsToTxnRequest.sameK (stop := fun v t => AddOffsetsToTxnRequest.ends v t 3) (c := fun v t => AddOffsetsToTxnRequest.cutAt v t 0) (fun _ _ _ => rfl) AddOffsetsToTxnRequest.cutsK (c0 := AddOffsetsToTxnRequest.first 0) rfl AddOffsetsToTxnRequest.partsK AddOffsetsToTxnRequest.part_of AddOffsetsToTxnRequest.filled (by decide) (by decide)

/-- message/messages.gen.go:6927-6938 `AddOffsetsToTxnResponse.Decode`, with the receiver kept -/
def AddOffsetsToTxnResponse.decodeK (_version : Int16) : KDec AddOffsetsToTxnResponse :=
    KDec.field Dec.int32 0 (fun t x => { t with ThrottleTimeMs := x }) ;|>
    KDec.field Dec.int16 0 (fun t x => { t with ErrorCode := x })

/-- Where the fields of `AddOffsetsToTxnResponse` end. -/
def AddOffsetsToTxnResponse.ends (_version : Int16) (t : AddOffsetsToTxnResponse) : Nat → Nat :=
  Cut.ends 0 [Wire.int32 t.ThrottleTimeMs,
    Wire.int16 t.ErrorCode]

/-- What is left of `t` if only its first `n` bytes are there. -/
def AddOffsetsToTxnResponse.cut (version : Int16) (n : Nat) (t : AddOffsetsToTxnResponse) : AddOffsetsToTxnResponse :=
  { ThrottleTimeMs := Cut.field n (t.ends version 0) t.ThrottleTimeMs 0,
    ErrorCode := Cut.field n (t.ends version 1) t.ErrorCode 0 }

/-- The same after the first `k` statements of `Decode`. -/
def AddOffsetsToTxnResponse.cutAt (version : Int16) (t : AddOffsetsToTxnResponse) (k n : Nat) : AddOffsetsToTxnResponse :=
  { ThrottleTimeMs := upto k 0 (Cut.field n (t.ends version 0) t.ThrottleTimeMs 0) 0,
    ErrorCode := upto k 1 (Cut.field n (t.ends version 1) t.ErrorCode 0) 0 }

/-- The first `k` fields of `y`, and zeros. -/
def AddOffsetsToTxnResponse.first (k : Nat) (y : AddOffsetsToTxnResponse) : AddOffsetsToTxnResponse :=
  { ThrottleTimeMs := upto k 0 y.ThrottleTimeMs 0,
    ErrorCode := upto k 1 y.ErrorCode 0 }

/-- `r` is a beginning of `y`, and zeros. -/
def AddOffsetsToTxnResponse.Part (r y : AddOffsetsToTxnResponse) : Prop :=
  (∃ k, k < 2 ∧ r = y.first k)

/-- `AddOffsetsToTxnResponse` with its receiver kept. -/
def AddOffsetsToTxnResponse.keeps : KeptMsg AddOffsetsToTxnResponse.type := { decode := AddOffsetsToTxnResponse.decodeK, cut := AddOffsetsToTxnResponse.cut, Part := AddOffsetsToTxnResponse.Part }

theorem AddOffsetsToTxnResponse.sameK (version : Int16) : KStep (AddOffsetsToTxnResponse.decodeK version) (AddOffsetsToTxnResponse.decode version) :=
  (KStep.field)
    |>.andThen (KStep.field)
theorem AddOffsetsToTxnResponse.cutsK (version : Int16) (t : AddOffsetsToTxnResponse) (h : t.Fits version) :
    Cuts (AddOffsetsToTxnResponse.decodeK version) 0 (AddOffsetsToTxnResponse.wire version t) (AddOffsetsToTxnResponse.ends version t 1) (AddOffsetsToTxnResponse.cutAt version t 0) (AddOffsetsToTxnResponse.cutAt version t 2) :=
  (.field (reads_int32 t.ThrottleTimeMs) (fun _ => rfl) (fun _ => rfl) : Cuts _ 0 _ (AddOffsetsToTxnResponse.ends version t 0) (AddOffsetsToTxnResponse.cutAt version t 0) (AddOffsetsToTxnResponse.cutAt version t 1))
    |>.andThen (.field (reads_int16 t.ErrorCode) (fun _ => rfl) (fun _ => rfl) : Cuts _ (AddOffsetsToTxnResponse.ends version t 0) _ (AddOffsetsToTxnResponse.ends version t 1) (AddOffsetsToTxnResponse.cutAt version t 1) (AddOffsetsToTxnResponse.cutAt version t 2))
theorem AddOffsetsToTxnResponse.partsK (version : Int16) : Parts (AddOffsetsToTxnResponse.decodeK version) (AddOffsetsToTxnResponse.first 0) (AddOffsetsToTxnResponse.first 2) (fun r y => ((r = AddOffsetsToTxnResponse.first 0 y) ∨ (r = AddOffsetsToTxnResponse.first 1 y))) :=
  (.field Longer.int32 (fun _ => rfl) (fun _ _ => rfl) (fun _ _ => rfl) (fun _ => rfl) : Parts (KDec.field Dec.int32 0 (fun t x => { t with ThrottleTimeMs := x })) (AddOffsetsToTxnResponse.first 0) (AddOffsetsToTxnResponse.first 1) (fun r y => r = AddOffsetsToTxnResponse.first 0 y))
    |>.andThen (.field Longer.int16 (fun _ => rfl) (fun _ _ => rfl) (fun _ _ => rfl) (fun _ => rfl) : Parts (KDec.field Dec.int16 0 (fun t x => { t with ErrorCode := x })) (AddOffsetsToTxnResponse.first 1) (AddOffsetsToTxnResponse.first 2) (fun r y => r = AddOffsetsToTxnResponse.first 1 y))
theorem AddOffsetsToTxnResponse.filled (version : Int16) : FilledStep 6 6 (AddOffsetsToTxnResponse.decode version) :=
  ((FilledStep.field .int32)
    |>.andThen (FilledStep.field .int16)).mono (by decide) (by decide)
theorem AddOffsetsToTxnResponse.part_of (r y : AddOffsetsToTxnResponse) (h : ((r = AddOffsetsToTxnResponse.first 0 y) ∨ (r = AddOffsetsToTxnResponse.first 1 y))) : AddOffsetsToTxnResponse.Part r y :=
  match h with
    | (.inl h) => ⟨0, by decide, h⟩
    | (.inr h) => ⟨1, by decide, h⟩
theorem AddOffsetsToTxnResponse.keeps_holds : AddOffsetsToTxnResponse.keeps.Holds AddOffsetsToTxnResponse.layout :=
  KeptMsg.holds AddOffsetsToTxnResponse.lawful AddOffsetsToTxnResponse.sameK (stop := fun v t => AddOffsetsToTxnResponse.ends v t 1) (c := fun v t => AddOffsetsToTxnResponse.cutAt v t 0) (fun _ _ _ => rfl) AddOffsetsToTxnResponse.cutsK (c0 := AddOffsetsToTxnResponse.first 0) rfl AddOffsetsToTxnResponse.partsK AddOffsetsToTxnResponse.part_of AddOffsetsToTxnResponse.filled (by decide) (by decide)

/-- The structures of the AddOffsetsToTxn messages. -/
def keptAddOffsetsToTxn : List (Σ (M : MsgType) (_ : Layout M), KeptMsg M) :=
  [⟨AddOffsetsToTxnRequest.type, AddOffsetsToTxnRequest.layout, AddOffsetsToTxnRequest.keeps⟩,
   ⟨AddOffsetsToTxnResponse.type, AddOffsetsToTxnResponse.layout, AddOffsetsToTxnResponse.keeps⟩]
theorem keptAddOffsetsToTxn_holds : ∀ p ∈ keptAddOffsetsToTxn, p.2.2.Holds p.2.1 := by
  unfold keptAddOffsetsToTxn
  simp only [List.forall_mem_cons]
  exact ⟨AddOffsetsToTxnRequest.keeps_holds, AddOffsetsToTxnResponse.keeps_holds, fun _ h => absurd h (by simp)⟩

end Kafka.Msg
