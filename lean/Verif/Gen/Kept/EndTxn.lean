import Verif.Message.KeptLemmas
import Verif.Gen.Proof.EndTxn
/-!
Generated by tools/gen_messages.py: what is in the EndTxn messages after an error.
-/
set_option linter.unusedVariables false
namespace Kafka.Msg

/-- message/messages.gen.go:6967-6986 `EndTxnRequest.Decode`, with the receiver kept -/
def EndTxnRequest.decodeK (_version : Int16) : KDec EndTxnRequest :=
    KDec.field Dec.string [] (fun t x => { t with TransactionalId := x }) ;|>
    KDec.field Dec.int64 0 (fun t x => { t with ProducerId := x }) ;|>
    KDec.field Dec.int16 0 (fun t x => { t with ProducerEpoch := x }) ;|>
    KDec.field Dec.bool false (fun t x => { t with Committed := x })

/-- Where the fields of `EndTxnRequest` end. -/
def EndTxnRequest.ends (_version : Int16) (t : EndTxnRequest) : Nat → Nat :=
  Cut.ends 0 [Wire.string t.TransactionalId,
    Wire.int64 t.ProducerId,
    Wire.int16 t.ProducerEpoch,
    Wire.bool t.Committed]

/-- What is left of `t` if only its first `n` bytes are there. -/
def EndTxnRequest.cut (version : Int16) (n : Nat) (t : EndTxnRequest) : EndTxnRequest :=
  { TransactionalId := Cut.field n (t.ends version 0) t.TransactionalId [],
    ProducerId := Cut.field n (t.ends version 1) t.ProducerId 0,
    ProducerEpoch := Cut.field n (t.ends version 2) t.ProducerEpoch 0,
    Committed := Cut.field n (t.ends version 3) t.Committed false }

/-- The same after the first `k` statements of `Decode`. -/
def EndTxnRequest.cutAt (version : Int16) (t : EndTxnRequest) (k n : Nat) : EndTxnRequest :=
  { TransactionalId := upto k 0 (Cut.field n (t.ends version 0) t.TransactionalId []) [],
    ProducerId := upto k 1 (Cut.field n (t.ends version 1) t.ProducerId 0) 0,
    ProducerEpoch := upto k 2 (Cut.field n (t.ends version 2) t.ProducerEpoch 0) 0,
    Committed := upto k 3 (Cut.field n (t.ends version 3) t.Committed false) false }

/-- The first `k` fields of `y`, and zeros. -/
def EndTxnRequest.first (k : Nat) (y : EndTxnRequest) : EndTxnRequest :=
  { TransactionalId := upto k 0 y.TransactionalId [],
    ProducerId := upto k 1 y.ProducerId 0,
    ProducerEpoch := upto k 2 y.ProducerEpoch 0,
    Committed := upto k 3 y.Committed false }

/-- `r` is a beginning of `y`, and zeros. -/
def EndTxnRequest.Part (r y : EndTxnRequest) : Prop :=
  (∃ k, k < 4 ∧ r = y.first k)

/-- `EndTxnRequest` with its receiver kept. -/
def EndTxnRequest.keeps : KeptMsg EndTxnRequest.type := { decode := EndTxnRequest.decodeK, cut := EndTxnRequest.cut, Part := EndTxnRequest.Part }

theorem EndTxnRequest.sameK (version : Int16) : KStep (EndTxnRequest.decodeK version) (EndTxnRequest.decode version) :=
  (KStep.field)
    |>.andThen (KStep.field)
    |>.andThen (KStep.field)
    |>.andThen (KStep.field)
theorem EndTxnRequest.cutsK (version : Int16) (t : EndTxnRequest) (h : t.Fits version) :
    Cuts (EndTxnRequest.decodeK version) 0 (EndTxnRequest.wire version t) (EndTxnRequest.ends version t 3) (EndTxnRequest.cutAt version t 0) (EndTxnRequest.cutAt version t 4) :=
  (.field (reads_string h.TransactionalId) (fun _ => rfl) (fun _ => rfl) : Cuts _ 0 _ (EndTxnRequest.ends version t 0) (EndTxnRequest.cutAt version t 0) (EndTxnRequest.cutAt version t 1))
    |>.andThen (.field (reads_int64 t.ProducerId) (fun _ => rfl) (fun _ => rfl) : Cuts _ (EndTxnRequest.ends version t 0) _ (EndTxnRequest.ends version t 1) (EndTxnRequest.cutAt version t 1) (EndTxnRequest.cutAt version t 2))
    |>.andThen (.field (reads_int16 t.ProducerEpoch) (fun _ => rfl) (fun _ => rfl) : Cuts _ (EndTxnRequest.ends version t 1) _ (EndTxnRequest.ends version t 2) (EndTxnRequest.cutAt version t 2) (EndTxnRequest.cutAt version t 3))
    |>.andThen (.field (reads_bool t.Committed) (fun _ => rfl) (fun _ => rfl) : Cuts _ (EndTxnRequest.ends version t 2) _ (EndTxnRequest.ends version t 3) (EndTxnRequest.cutAt version t 3) (EndTxnRequest.cutAt version t 4))
theorem EndTxnRequest.partsK (version : Int16) : Parts (EndTxnRequest.decodeK version) (EndTxnRequest.first 0) (EndTxnRequest.first 4) (fun r y => ((((r = EndTxnRequest.first 0 y) ∨ (r = EndTxnRequest.first 1 y)) ∨ (r = EndTxnRequest.first 2 y)) ∨ (r = EndTxnRequest.first 3 y))) :=
  (.field Longer.string (fun _ => rfl) (fun _ _ => rfl) (fun _ _ => rfl) (fun _ => rfl) : Parts (KDec.field Dec.string [] (fun t x => { t with TransactionalId := x })) (EndTxnRequest.first 0) (EndTxnRequest.first 1) (fun r y => r = EndTxnRequest.first 0 y))
    |>.andThen (.field Longer.int64 (fun _ => rfl) (fun _ _ => rfl) (fun _ _ => rfl) (fun _ => rfl) : Parts (KDec.field Dec.int64 0 (fun t x => { t with ProducerId := x })) (EndTxnRequest.first 1) (EndTxnRequest.first 2) (fun r y => r = EndTxnRequest.first 1 y))
    |>.andThen (.field Longer.int16 (fun _ => rfl) (fun _ _ => rfl) (fun _ _ => rfl) (fun _ => rfl) : Parts (KDec.field Dec.int16 0 (fun t x => { t with ProducerEpoch := x })) (EndTxnRequest.first 2) (EndTxnRequest.first 3) (fun r y => r = EndTxnRequest.first 2 y))
    |>.andThen (.field Longer.bool (fun _ => rfl) (fun _ _ => rfl) (fun _ _ => rfl) (fun _ => rfl) : Parts (KDec.field Dec.bool false (fun t x => { t with Committed := x })) (EndTxnRequest.first 3) (EndTxnRequest.first 4) (fun r y => r = EndTxnRequest.first 3 y))
theorem EndTxnRequest.filled (version : Int16) : FilledStep 13 32781 (EndTxnRequest.decode version) :=
  ((FilledStep.field .string)
    |>.andThen (FilledStep.field .int64)
    |>.andThen (FilledStep.field .int16)
    |>.andThen (FilledStep.field .bool)).mono (by decide) (by decide)
theorem EndTxnRequest.part_of (r y : EndTxnRequest) (h : ((((r = EndTxnRequest.first 0 y) ∨ (r = EndTxnRequest.first 1 y)) ∨ (r = EndTxnRequest.first 2 y)) ∨ (r = EndTxnRequest.first 3 y))) : EndTxnRequest.Part r y :=
  match h with
    | (.inl (.inl (.inl h))) => ⟨0, by decide, h⟩
    | (.inl (.inl (.inr h))) => ⟨1, by decide, h⟩
    | (.inl (.inr h)) => ⟨2, by decide, h⟩
    | (.inr h) => ⟨3, by decide, h⟩
theorem EndTxnRequest.keeps_holds : EndTxnRequest.keeps.Holds EndTxnRequest.layout :=
  KeptMsg.holds EndTxnRequest.lawful EndTxnRequest.sameK (stop := fun v t => EndTxnRequest.ends v t 3) (c := fun v t => EndTxnRequest.cutAt v t 0) (fun _ _ _ => rfl) EndTxnRequest.cutsK (c0 := EndTxnRequest.first 0) rfl EndTxnRequest.partsK EndTxnRequest.part_of EndTxnRequest.filled (by decide) (by decide)

/-- message/messages.gen.go:7009-7020 `EndTxnResponse.Decode`, with the receiver kept -/
def EndTxnResponse.decodeK (_version : Int16) : KDec EndTxnResponse :=
    KDec.field Dec.int32 0 (fun t x => { t with ThrottleTimeMs := x }) ;|>
    KDec.field Dec.int16 0 (fun t x => { t with ErrorCode := x })

/-- Where the fields of `EndTxnResponse` end. -/
def EndTxnResponse.ends (_version : Int16) (t : EndTxnResponse) : Nat → Nat :=
  Cut.ends 0 [Wire.int32 t.ThrottleTimeMs,
    Wire.int16 t.ErrorCode]

/-- What is left of `t` if only its first `n` bytes are there. -/
def EndTxnResponse.cut (version : Int16) (n : Nat) (t : EndTxnResponse) : EndTxnResponse :=
  { ThrottleTimeMs := Cut.field n (t.ends version 0) t.ThrottleTimeMs 0,
    ErrorCode := Cut.field n (t.ends version 1) t.ErrorCode 0 }

/-- The same after the first `k` statements of `Decode`. -/
def EndTxnResponse.cutAt (version : Int16) (t : EndTxnResponse) (k n : Nat) : EndTxnResponse :=
  { ThrottleTimeMs := upto k 0 (Cut.field n (t.ends version 0) t.ThrottleTimeMs 0) 0,
    ErrorCode := upto k 1 (Cut.field n (t.ends version 1) t.ErrorCode 0) 0 }

/-- The first `k` fields of `y`, and zeros. -/
def EndTxnResponse.first (k : Nat) (y : EndTxnResponse) : EndTxnResponse :=
  { ThrottleTimeMs := upto k 0 y.ThrottleTimeMs 0,
    ErrorCode := upto k 1 y.ErrorCode 0 }

/-- `r` is a beginning of `y`, and zeros. -/
def EndTxnResponse.Part (r y : EndTxnResponse) : Prop :=
  (∃ k, k < 2 ∧ r = y.first k)

/-- `EndTxnResponse` with its receiver kept. -/
def EndTxnResponse.keeps : KeptMsg EndTxnResponse.type := { decode := EndTxnResponse.decodeK, cut := EndTxnResponse.cut, Part := EndTxnResponse.Part }

theorem EndTxnResponse.sameK (version : Int16) : KStep (EndTxnResponse.decodeK version) (EndTxnResponse.decode version) :=
  (KStep.field)
    |>.andThen (KStep.field)
theorem EndTxnResponse.cutsK (version : Int16) (t : EndTxnResponse) (h : t.Fits version) :
    Cuts (EndTxnResponse.decodeK version) 0 (EndTxnResponse.wire version t) (EndTxnResponse.ends version t 1) (EndTxnResponse.cutAt version t 0) (EndTxnResponse.cutAt version t 2) :=
  (.field (reads_int32 t.ThrottleTimeMs) (fun _ => rfl) (fun _ => rfl) : Cuts _ 0 _ (EndTxnResponse.ends version t 0) (EndTxnResponse.cutAt version t 0) (EndTxnResponse.cutAt version t 1))
    |>.andThen (.field (reads_int16 t.ErrorCode) (fun _ => rfl) (fun _ => rfl) : Cuts _ (EndTxnResponse.ends version t 0) _ (EndTxnResponse.ends version t 1) (EndTxnResponse.cutAt version t 1) (EndTxnResponse.cutAt version t 2))
theorem EndTxnResponse.partsK (version : Int16) : Parts (EndTxnResponse.decodeK version) (EndTxnResponse.first 0) (EndTxnResponse.first 2) (fun r y => ((r = EndTxnResponse.first 0 y) ∨ (r = EndTxnResponse.first 1 y))) :=
  (.field Longer.int32 (fun _ => rfl) (fun _ _ => rfl) (fun _ _ => rfl) (fun _ => rfl) : Parts (KDec.field Dec.int32 0 (fun t x => { t with ThrottleTimeMs := x })) (EndTxnResponse.first 0) (EndTxnResponse.first 1) (fun r y => r = EndTxnResponse.first 0 y))
    |>.andThen (.field Longer.int16 (fun _ => rfl) (fun _ _ => rfl) (fun _ _ => rfl) (fun _ => rfl) : Parts (KDec.field Dec.int16 0 (fun t x => { t with ErrorCode := x })) (EndTxnResponse.first 1) (EndTxnResponse.first 2) (fun r y => r = EndTxnResponse.first 1 y))
theorem EndTxnResponse.filled (version : Int16) : FilledStep 6 6 (EndTxnResponse.decode version) :=
  ((FilledStep.field .int32)
    |>.andThen (FilledStep.field .int16)).mono (by decide) (by decide)
theorem EndTxnResponse.part_of (r y : EndTxnResponse) (h : ((r = EndTxnResponse.first 0 y) ∨ (r = EndTxnResponse.first 1 y))) : EndTxnResponse.Part r y :=
  match h with
    | (.inl h) => ⟨0, by decide, h⟩
    | (.inr h) => ⟨1, by decide, h⟩
theorem EndTxnResponse.keeps_holds : EndTxnResponse.keeps.Holds EndTxnResponse.layout :=
  KeptMsg.holds EndTxnResponse.lawful EndTxnResponse.sameK (stop := fun v t => EndTxnResponse.ends v t 1) (c := fun v t => EndTxnResponse.cutAt v t 0) (fun _ _ _ => rfl) EndTxnResponse.cutsK (c0 := EndTxnResponse.first 0) rfl EndTxnResponse.partsK EndTxnResponse.part_of EndTxnResponse.filled (by decide) (by decide)

/-- The structures of the EndTxn messages. -/
def keptEndTxn : List (Σ (M : MsgType) (_ : Layout M), KeptMsg M) :=
  [⟨EndTxnRequest.type, EndTxnRequest.layout, EndTxnRequest.keeps⟩,
   ⟨EndTxnResponse.type, EndTxnResponse.layout, EndTxnResponse.keeps⟩]
theorem keptEndTxn_holds : ∀ p ∈ keptEndTxn, p.2.2.Holds p.2.1 := by
  unfold keptEndTxn
  simp only [List.forall_mem_cons]
  exact ⟨EndTxnRequest.keeps_holds, EndTxnResponse.keeps_holds, fun _ h => absurd h (by simp)⟩

end Kafka.Msg
