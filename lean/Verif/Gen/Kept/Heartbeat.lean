import Verif.Message.KeptLemmas
import Verif.Gen.Proof.Heartbeat
/-!
Generated by tools/gen_messages.py: what is in the Heartbeat messages after an error.
-/
set_option linter.unusedVariables false
namespace Kafka.Msg

/-- message/messages.gen.go:4311-4332 `HeartbeatRequest.Decode`, with the receiver kept -/
def HeartbeatRequest.decodeK (version : Int16) : KDec HeartbeatRequest :=
    KDec.field Dec.string [] (fun t x => { t with GroupId := x }) ;|>
    KDec.field Dec.int32 0 (fun t x => { t with GenerationId := x }) ;|>
    KDec.field Dec.string [] (fun t x => { t with MemberId := x }) ;|>
    KDec.onlyIf (version ≥ 3) (KDec.field Dec.string [] (fun t x => { t with GroupInstanceId := x }))

/-- Where the fields of `HeartbeatRequest` end. -/
def HeartbeatRequest.ends (version : Int16) (t : HeartbeatRequest) : Nat → Nat :=
  Cut.ends 0 [Wire.string t.GroupId,
    Wire.int32 t.GenerationId,
    Wire.string t.MemberId,
    Wire.when (version ≥ 3) (Wire.string t.GroupInstanceId)]

/-- What is left of `t` if only its first `n` bytes are there. -/
def HeartbeatRequest.cut (version : Int16) (n : Nat) (t : HeartbeatRequest) : HeartbeatRequest :=
  { GroupId := Cut.field n (t.ends version 0) t.GroupId [],
    GenerationId := Cut.field n (t.ends version 1) t.GenerationId 0,
    MemberId := Cut.field n (t.ends version 2) t.MemberId [],
    GroupInstanceId := Cut.gate (version ≥ 3) (Cut.field n (t.ends version 3) t.GroupInstanceId []) [] }

/-- The same after the first `k` statements of `Decode`. -/
def HeartbeatRequest.cutAt (version : Int16) (t : HeartbeatRequest) (k n : Nat) : HeartbeatRequest :=
  { GroupId := upto k 0 (Cut.field n (t.ends version 0) t.GroupId []) [],
    GenerationId := upto k 1 (Cut.field n (t.ends version 1) t.GenerationId 0) 0,
    MemberId := upto k 2 (Cut.field n (t.ends version 2) t.MemberId []) [],
    GroupInstanceId := upto k 3 (Cut.gate (version ≥ 3) (Cut.field n (t.ends version 3) t.GroupInstanceId []) []) [] }

/-- The first `k` fields of `y`, and zeros. -/
def HeartbeatRequest.first (k : Nat) (y : HeartbeatRequest) : HeartbeatRequest :=
  { GroupId := upto k 0 y.GroupId [],
    GenerationId := upto k 1 y.GenerationId 0,
    MemberId := upto k 2 y.MemberId [],
    GroupInstanceId := upto k 3 y.GroupInstanceId [] }

/-- `r` is a beginning of `y`, and zeros. -/
def HeartbeatRequest.Part (r y : HeartbeatRequest) : Prop :=
  (∃ k, k < 4 ∧ r = y.first k)

/-- `HeartbeatRequest` with its receiver kept. -/
def HeartbeatRequest.keeps : KeptMsg HeartbeatRequest.type := { decode := HeartbeatRequest.decodeK, cut := HeartbeatRequest.cut, Part := HeartbeatRequest.Part }

theorem HeartbeatRequest.sameK (version : Int16) : KStep (HeartbeatRequest.decodeK version) (HeartbeatRequest.decode version) :=
  (KStep.field)
    |>.andThen (KStep.field)
    |>.andThen (KStep.field)
    |>.andThen (KStep.onlyIf (KStep.field))
theorem HeartbeatRequest.cutsK (version : Int16) (t : HeartbeatRequest) (h : t.Fits version) :
    Cuts (HeartbeatRequest.decodeK version) 0 (HeartbeatRequest.wire version t) (HeartbeatRequest.ends version t 3) (HeartbeatRequest.cutAt version t 0) (HeartbeatRequest.cutAt version t 4) :=
  (.field (reads_string h.GroupId) (fun _ => rfl) (fun _ => rfl) : Cuts _ 0 _ (HeartbeatRequest.ends version t 0) (HeartbeatRequest.cutAt version t 0) (HeartbeatRequest.cutAt version t 1))
    |>.andThen (.field (reads_int32 t.GenerationId) (fun _ => rfl) (fun _ => rfl) : Cuts _ (HeartbeatRequest.ends version t 0) _ (HeartbeatRequest.ends version t 1) (HeartbeatRequest.cutAt version t 1) (HeartbeatRequest.cutAt version t 2))
    |>.andThen (.field (reads_string h.MemberId) (fun _ => rfl) (fun _ => rfl) : Cuts _ (HeartbeatRequest.ends version t 1) _ (HeartbeatRequest.ends version t 2) (HeartbeatRequest.cutAt version t 2) (HeartbeatRequest.cutAt version t 3))
    |>.andThen (.optField (fun hc => reads_string (h.GroupInstanceId hc)) (fun _ => rfl) (fun _ => rfl) : Cuts _ (HeartbeatRequest.ends version t 2) _ (HeartbeatRequest.ends version t 3) (HeartbeatRequest.cutAt version t 3) (HeartbeatRequest.cutAt version t 4))
theorem HeartbeatRequest.partsK (version : Int16) : Parts (HeartbeatRequest.decodeK version) (HeartbeatRequest.first 0) (HeartbeatRequest.first 4) (fun r y => ((((r = HeartbeatRequest.first 0 y) ∨ (r = HeartbeatRequest.first 1 y)) ∨ (r = HeartbeatRequest.first 2 y)) ∨ (r = HeartbeatRequest.first 3 y))) :=
  (.field Longer.string (fun _ => rfl) (fun _ _ => rfl) (fun _ _ => rfl) (fun _ => rfl) : Parts (KDec.field Dec.string [] (fun t x => { t with GroupId := x })) (HeartbeatRequest.first 0) (HeartbeatRequest.first 1) (fun r y => r = HeartbeatRequest.first 0 y))
    |>.andThen (.field Longer.int32 (fun _ => rfl) (fun _ _ => rfl) (fun _ _ => rfl) (fun _ => rfl) : Parts (KDec.field Dec.int32 0 (fun t x => { t with GenerationId := x })) (HeartbeatRequest.first 1) (HeartbeatRequest.first 2) (fun r y => r = HeartbeatRequest.first 1 y))
    |>.andThen (.field Longer.string (fun _ => rfl) (fun _ _ => rfl) (fun _ _ => rfl) (fun _ => rfl) : Parts (KDec.field Dec.string [] (fun t x => { t with MemberId := x })) (HeartbeatRequest.first 2) (HeartbeatRequest.first 3) (fun r y => r = HeartbeatRequest.first 2 y))
    |>.andThen (.onlyIf (.field Longer.string (fun _ => rfl) (fun _ _ => rfl) (fun _ _ => rfl) (fun _ => rfl)) (fun _ => rfl) : Parts (KDec.onlyIf (version ≥ 3) (KDec.field Dec.string [] (fun t x => { t with GroupInstanceId := x }))) (HeartbeatRequest.first 3) (HeartbeatRequest.first 4) (fun r y => r = HeartbeatRequest.first 3 y))
theorem HeartbeatRequest.filled (version : Int16) : FilledStep 10 32778 (HeartbeatRequest.decode version) :=
  ((FilledStep.field .string)
    |>.andThen (FilledStep.field .int32)
    |>.andThen (FilledStep.field .string)
    |>.andThen (FilledStep.onlyIf (FilledStep.field .string))).mono (by decide) (by decide)
theorem HeartbeatRequest.part_of (r y : HeartbeatRequest) (h : ((((r = HeartbeatRequest.first 0 y) ∨ (r = HeartbeatRequest.first 1 y)) ∨ (r = HeartbeatRequest.first 2 y)) ∨ (r = HeartbeatRequest.first 3 y))) : HeartbeatRequest.Part r y :=
  match h with
    | (.inl (.inl (.inl h))) => ⟨0, by decide, h⟩
    | (.inl (.inl (.inr h))) => ⟨1, by decide, h⟩
    | (.inl (.inr h)) => ⟨2, by decide, h⟩
    | (.inr h) => ⟨3, by decide, h⟩
theorem HeartbeatRequest.keeps_holds : HeartbeatRequest.keeps.Holds HeartbeatRequest.layout :=
  KeptMsg.holds HeartbeatRequest.lawful HeartbeatRequest.sameK (stop := fun v t => HeartbeatRequest.ends v t 3) (c := fun v t => HeartbeatRequest.cutAt v t 0) (fun _ _ _ => rfl) HeartbeatRequest.cutsK (c0 := HeartbeatRequest.first 0) rfl HeartbeatRequest.partsK HeartbeatRequest.part_of HeartbeatRequest.filled (by decide) (by decide)

/-- message/messages.gen.go:4359-4372 `HeartbeatResponse.Decode`, with the receiver kept -/
def HeartbeatResponse.decodeK (version : Int16) : KDec HeartbeatResponse :=
    KDec.onlyIf (version ≥ 1) (KDec.field Dec.int32 0 (fun t x => { t with ThrottleTimeMs := x })) ;|>
    KDec.field Dec.int16 0 (fun t x => { t with ErrorCode := x })

/-- Where the fields of `HeartbeatResponse` end. -/
def HeartbeatResponse.ends (version : Int16) (t : HeartbeatResponse) : Nat → Nat :=
  Cut.ends 0 [Wire.when (version ≥ 1) (Wire.int32 t.ThrottleTimeMs),
    Wire.int16 t.ErrorCode]

/-- What is left of `t` if only its first `n` bytes are there. -/
def HeartbeatResponse.cut (version : Int16) (n : Nat) (t : HeartbeatResponse) : HeartbeatResponse :=
  { ThrottleTimeMs := Cut.gate (version ≥ 1) (Cut.field n (t.ends version 0) t.ThrottleTimeMs 0) 0,
    ErrorCode := Cut.field n (t.ends version 1) t.ErrorCode 0 }

/-- The same after the first `k` statements of `Decode`. -/
def HeartbeatResponse.cutAt (version : Int16) (t : HeartbeatResponse) (k n : Nat) : HeartbeatResponse :=
  { ThrottleTimeMs := upto k 0 (Cut.gate (version ≥ 1) (Cut.field n (t.ends version 0) t.ThrottleTimeMs 0) 0) 0,
    ErrorCode := upto k 1 (Cut.field n (t.ends version 1) t.ErrorCode 0) 0 }

/-- The first `k` fields of `y`, and zeros. -/
def HeartbeatResponse.first (k : Nat) (y : HeartbeatResponse) : HeartbeatResponse :=
  { ThrottleTimeMs := upto k 0 y.ThrottleTimeMs 0,
    ErrorCode := upto k 1 y.ErrorCode 0 }

/-- `r` is a beginning of `y`, and zeros. -/
def HeartbeatResponse.Part (r y : HeartbeatResponse) : Prop :=
  (∃ k, k < 2 ∧ r = y.first k)

/-- `HeartbeatResponse` with its receiver kept. -/
def HeartbeatResponse.keeps : KeptMsg HeartbeatResponse.type := { decode := HeartbeatResponse.decodeK, cut := HeartbeatResponse.cut, Part := HeartbeatResponse.Part }

theorem HeartbeatResponse.sameK (version : Int16) : KStep (HeartbeatResponse.decodeK version) (HeartbeatResponse.decode version) :=
  (KStep.onlyIf (KStep.field))
    |>.andThen (KStep.field)
theorem HeartbeatResponse.cutsK (version : Int16) (t : HeartbeatResponse) (h : t.Fits version) :
    Cuts (HeartbeatResponse.decodeK version) 0 (HeartbeatResponse.wire version t) (HeartbeatResponse.ends version t 1) (HeartbeatResponse.cutAt version t 0) (HeartbeatResponse.cutAt version t 2) :=
  (.optField (fun _ => reads_int32 t.ThrottleTimeMs) (fun _ => rfl) (fun _ => rfl) : Cuts _ 0 _ (HeartbeatResponse.ends version t 0) (HeartbeatResponse.cutAt version t 0) (HeartbeatResponse.cutAt version t 1))
    |>.andThen (.field (reads_int16 t.ErrorCode) (fun _ => rfl) (fun _ => rfl) : Cuts _ (HeartbeatResponse.ends version t 0) _ (HeartbeatResponse.ends version t 1) (HeartbeatResponse.cutAt version t 1) (HeartbeatResponse.cutAt version t 2))
theorem HeartbeatResponse.partsK (version : Int16) : Parts (HeartbeatResponse.decodeK version) (HeartbeatResponse.first 0) (HeartbeatResponse.first 2) (fun r y => ((r = HeartbeatResponse.first 0 y) ∨ (r = HeartbeatResponse.first 1 y))) :=
  (.onlyIf (.field Longer.int32 (fun _ => rfl) (fun _ _ => rfl) (fun _ _ => rfl) (fun _ => rfl)) (fun _ => rfl) : Parts (KDec.onlyIf (version ≥ 1) (KDec.field Dec.int32 0 (fun t x => { t with ThrottleTimeMs := x }))) (HeartbeatResponse.first 0) (HeartbeatResponse.first 1) (fun r y => r = HeartbeatResponse.first 0 y))
    |>.andThen (.field Longer.int16 (fun _ => rfl) (fun _ _ => rfl) (fun _ _ => rfl) (fun _ => rfl) : Parts (KDec.field Dec.int16 0 (fun t x => { t with ErrorCode := x })) (HeartbeatResponse.first 1) (HeartbeatResponse.first 2) (fun r y => r = HeartbeatResponse.first 1 y))
theorem HeartbeatResponse.filled (version : Int16) : FilledStep 6 6 (HeartbeatResponse.decode version) :=
  ((FilledStep.onlyIf (FilledStep.field .int32))
    |>.andThen (FilledStep.field .int16)).mono (by decide) (by decide)
theorem HeartbeatResponse.part_of (r y : HeartbeatResponse) (h : ((r = HeartbeatResponse.first 0 y) ∨ (r = HeartbeatResponse.first 1 y))) : HeartbeatResponse.Part r y :=
  match h with
    | (.inl h) => ⟨0, by decide, h⟩
    | (.inr h) => ⟨1, by decide, h⟩
theorem HeartbeatResponse.keeps_holds : HeartbeatResponse.keeps.Holds HeartbeatResponse.layout :=
  KeptMsg.holds HeartbeatResponse.lawful HeartbeatResponse.sameK (stop := fun v t => HeartbeatResponse.ends v t 1) (c := fun v t => HeartbeatResponse.cutAt v t 0) (fun _ _ _ => rfl) HeartbeatResponse.cutsK (c0 := HeartbeatResponse.first 0) rfl HeartbeatResponse.partsK HeartbeatResponse.part_of HeartbeatResponse.filled (by decide) (by decide)

/-- The structures of the Heartbeat messages. -/
def keptHeartbeat : List (Σ (M : MsgType) (_ : Layout M), KeptMsg M) :=
  [⟨HeartbeatRequest.type, HeartbeatRequest.layout, HeartbeatRequest.keeps⟩,
   ⟨HeartbeatResponse.type, HeartbeatResponse.layout, HeartbeatResponse.keeps⟩]
theorem keptHeartbeat_holds : ∀ p ∈ keptHeartbeat, p.2.2.Holds p.2.1 := by
  unfold keptHeartbeat
  simp only [List.forall_mem_cons]
  exact ⟨HeartbeatRequest.keeps_holds, HeartbeatResponse.keeps_holds, fun _ h => absurd h (by simp)⟩

end Kafka.Msg
