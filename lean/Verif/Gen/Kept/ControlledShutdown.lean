import Verif.Message.KeptLemmas
import Verif.Gen.Proof.ControlledShutdown
/-!
Generated by tools/gen_messages.py: what is in the ControlledShutdown messages after an error.
-/
set_option linter.unusedVariables false
namespace Kafka.Msg

/-- message/messages.gen.go:3188-3201 `ControlledShutdownRequest.Decode`, with the receiver kept -/
def ControlledShutdownRequest.decodeK (version : Int16) : KDec ControlledShutdownRequest :=
    KDec.field Dec.int32 0 (fun t x => { t with BrokerId := x }) ;|>
    KDec.onlyIf (version ≥ 2) (KDec.field Dec.int64 0 (fun t x => { t with BrokerEpoch := x }))

/-- Where the fields of `ControlledShutdownRequest` end. -/
def ControlledShutdownRequest.ends (version : Int16) (t : ControlledShutdownRequest) : Nat → Nat :=
  Cut.ends 0 [Wire.int32 t.BrokerId,
    Wire.when (version ≥ 2) (Wire.int64 t.BrokerEpoch)]

/-- What is left of `t` if only its first `n` bytes are there. -/
def ControlledShutdownRequest.cut (version : Int16) (n : Nat) (t : ControlledShutdownRequest) : ControlledShutdownRequest :=
  { BrokerId := Cut.field n (t.ends version 0) t.BrokerId 0,
    BrokerEpoch := Cut.gate (version ≥ 2) (Cut.field n (t.ends version 1) t.BrokerEpoch 0) 0 }

/-- The same after the first `k` statements of `Decode`. -/
def ControlledShutdownRequest.cutAt (version : Int16) (t : ControlledShutdownRequest) (k n : Nat) : ControlledShutdownRequest :=
  { BrokerId := upto k 0 (Cut.field n (t.ends version 0) t.BrokerId 0) 0,
    BrokerEpoch := upto k 1 (Cut.gate (version ≥ 2) (Cut.field n (t.ends version 1) t.BrokerEpoch 0) 0) 0 }

/-- The first `k` fields of `y`, and zeros. -/
def ControlledShutdownRequest.first (k : Nat) (y : ControlledShutdownRequest) : ControlledShutdownRequest :=
  { BrokerId := upto k 0 y.BrokerId 0,
    BrokerEpoch := upto k 1 y.BrokerEpoch 0 }

/-- `r` is a beginning of `y`, and zeros. -/
def ControlledShutdownRequest.Part (r y : ControlledShutdownRequest) : Prop :=
  (∃ k, k < 2 ∧ r = y.first k)

/-- `ControlledShutdownRequest` with its receiver kept. -/
def ControlledShutdownRequest.keeps : KeptMsg ControlledShutdownRequest.type := { decode := ControlledShutdownRequest.decodeK, cut := ControlledShutdownRequest.cut, Part := ControlledShutdownRequest.Part }

theorem ControlledShutdownRequest.sameK (version : Int16) : KStep (ControlledShutdownRequest.decodeK version) (ControlledShutdownRequest.decode version) :=
  (KStep.field)
    |>.andThen (KStep.onlyIf (KStep.field))
theorem ControlledShutdownRequest.cutsK (version : Int16) (t : ControlledShutdownRequest) (h : t.Fits version) :
    Cuts (ControlledShutdownRequest.decodeK version) 0 (ControlledShutdownRequest.wire version t) (ControlledShutdownRequest.ends version t 1) (ControlledShutdownRequest.cutAt version t 0) (ControlledShutdownRequest.cutAt version t 2) :=
  (.field (reads_int32 t.BrokerId) (fun _ => rfl) (fun _ => rfl) : Cuts _ 0 _ (ControlledShutdownRequest.ends version t 0) (ControlledShutdownRequest.cutAt version t 0) (ControlledShutdownRequest.cutAt version t 1))
    |>.andThen (.optField (fun _ => reads_int64 t.BrokerEpoch) (fun _ => rfl) (fun _ => rfl) : Cuts _ (ControlledShutdownRequest.ends version t 0) _ (ControlledShutdownRequest.ends version t 1) (ControlledShutdownRequest.cutAt version t 1) (ControlledShutdownRequest.cutAt version t 2))
theorem ControlledShutdownRequest.partsK (version : Int16) : Parts (ControlledShutdownRequest.decodeK version) (ControlledShutdownRequest.first 0) (ControlledShutdownRequest.first 2) (fun r y => ((r = ControlledShutdownRequest.first 0 y) ∨ (r = ControlledShutdownRequest.first 1 y))) :=
  (.field Longer.int32 (fun _ => rfl) (fun _ _ => rfl) (fun _ _ => rfl) (fun _ => rfl) : Parts (KDec.field Dec.int32 0 (fun t x => { t with BrokerId := x })) (ControlledShutdownRequest.first 0) (ControlledShutdownRequest.first 1) (fun r y => r = ControlledShutdownRequest.first 0 y))
    |>.andThen (.onlyIf (.field Longer.int64 (fun _ => rfl) (fun _ _ => rfl) (fun _ _ => rfl) (fun _ => rfl)) (fun _ => rfl) : Parts (KDec.onlyIf (version ≥ 2) (KDec.field Dec.int64 0 (fun t x => { t with BrokerEpoch := x }))) (ControlledShutdownRequest.first 1) (ControlledShutdownRequest.first 2) (fun r y => r = ControlledShutdownRequest.first 1 y))
theorem ControlledShutdownRequest.filled (version : Int16) : FilledStep 12 12 (ControlledShutdownRequest.decode version) :=
  ((FilledStep.field .int32)
    |>.andThen (FilledStep.onlyIf (FilledStep.field .int64))).mono (by decide) (by decide)
theorem ControlledShutdownRequest.part_of (r y : ControlledShutdownRequest) (h : ((r = ControlledShutdownRequest.first 0 y) ∨ (r = ControlledShutdownRequest.first 1 y))) : ControlledShutdownRequest.Part r y :=
  match h with
    | (.inl h) => ⟨0, by decide, h⟩
    | (.inr h) => ⟨1, by decide, h⟩
theorem ControlledShutdownRequest.keeps_holds : ControlledShutdownRequest.keeps.Holds ControlledShutdownRequest.layout :=
  KeptMsg.holds ControlledShutdownRequest.lawful ControlledShutdownRequest.sameK (stop := fun v t => ControlledShutdownRequest.ends v t 1) (c := fun v t => ControlledShutdownRequest.cutAt v t 0) (fun _ _ _ => rfl) ControlledShutdownRequest.cutsK (c0 := ControlledShutdownRequest.first 0) rfl ControlledShutdownRequest.partsK ControlledShutdownRequest.part_of ControlledShutdownRequest.filled (by decide) (by decide)

/-- message/messages.gen.go:3274-3285 `RemainingPartition7.Decode`, with the receiver kept -/
def RemainingPartition7.decodeK (_version : Int16) : KDec RemainingPartition7 :=
    KDec.field Dec.string [] (fun t x => { t with TopicName := x }) ;|>
    KDec.field Dec.int32 0 (fun t x => { t with PartitionIndex := x })

/-- Where the fields of `RemainingPartition7` end. -/
def RemainingPartition7.ends (_version : Int16) (t : RemainingPartition7) : Nat → Nat :=
  Cut.ends 0 [Wire.string t.TopicName,
    Wire.int32 t.PartitionIndex]

/-- What is left of `t` if only its first `n` bytes are there. -/
def RemainingPartition7.cut (version : Int16) (n : Nat) (t : RemainingPartition7) : RemainingPartition7 :=
  { TopicName := Cut.field n (t.ends version 0) t.TopicName [],
    PartitionIndex := Cut.field n (t.ends version 1) t.PartitionIndex 0 }

/-- The same after the first `k` statements of `Decode`. -/
def RemainingPartition7.cutAt (version : Int16) (t : RemainingPartition7) (k n : Nat) : RemainingPartition7 :=
  { TopicName := upto k 0 (Cut.field n (t.ends version 0) t.TopicName []) [],
    PartitionIndex := upto k 1 (Cut.field n (t.ends version 1) t.PartitionIndex 0) 0 }

/-- The first `k` fields of `y`, and zeros. -/
def RemainingPartition7.first (k : Nat) (y : RemainingPartition7) : RemainingPartition7 :=
  { TopicName := upto k 0 y.TopicName [],
    PartitionIndex := upto k 1 y.PartitionIndex 0 }

/-- `r` is a beginning of `y`, and zeros. -/
def RemainingPartition7.Part (r y : RemainingPartition7) : Prop :=
  (∃ k, k < 2 ∧ r = y.first k)

/-- `RemainingPartition7` with its receiver kept. -/
def RemainingPartition7.keeps : KeptMsg RemainingPartition7.type := { decode := RemainingPartition7.decodeK, cut := RemainingPartition7.cut, Part := RemainingPartition7.Part }

theorem RemainingPartition7.sameK (version : Int16) : KStep (RemainingPartition7.decodeK version) (RemainingPartition7.decode version) :=
  (KStep.field)
    |>.andThen (KStep.field)
theorem RemainingPartition7.cutsK (version : Int16) (t : RemainingPartition7) (h : t.Fits version) :
    Cuts (RemainingPartition7.decodeK version) 0 (RemainingPartition7.wire version t) (RemainingPartition7.ends version t 1) (RemainingPartition7.cutAt version t 0) (RemainingPartition7.cutAt version t 2) :=
  (.field (reads_string h.TopicName) (fun _ => rfl) (fun _ => rfl) : Cuts _ 0 _ (RemainingPartition7.ends version t 0) (RemainingPartition7.cutAt version t 0) (RemainingPartition7.cutAt version t 1))
    |>.andThen (.field (reads_int32 t.PartitionIndex) (fun _ => rfl) (fun _ => rfl) : Cuts _ (RemainingPartition7.ends version t 0) _ (RemainingPartition7.ends version t 1) (RemainingPartition7.cutAt version t 1) (RemainingPartition7.cutAt version t 2))
theorem RemainingPartition7.partsK (version : Int16) : Parts (RemainingPartition7.decodeK version) (RemainingPartition7.first 0) (RemainingPartition7.first 2) (fun r y => ((r = RemainingPartition7.first 0 y) ∨ (r = RemainingPartition7.first 1 y))) :=
  (.field Longer.string (fun _ => rfl) (fun _ _ => rfl) (fun _ _ => rfl) (fun _ => rfl) : Parts (KDec.field Dec.string [] (fun t x => { t with TopicName := x })) (RemainingPartition7.first 0) (RemainingPartition7.first 1) (fun r y => r = RemainingPartition7.first 0 y))
    |>.andThen (.field Longer.int32 (fun _ => rfl) (fun _ _ => rfl) (fun _ _ => rfl) (fun _ => rfl) : Parts (KDec.field Dec.int32 0 (fun t x => { t with PartitionIndex := x })) (RemainingPartition7.first 1) (RemainingPartition7.first 2) (fun r y => r = RemainingPartition7.first 1 y))
theorem RemainingPartition7.filled (version : Int16) : FilledStep 6 32774 (RemainingPartition7.decode version) :=
  ((FilledStep.field .string)
    |>.andThen (FilledStep.field .int32)).mono (by decide) (by decide)
theorem RemainingPartition7.part_of (r y : RemainingPartition7) (h : ((r = RemainingPartition7.first 0 y) ∨ (r = RemainingPartition7.first 1 y))) : RemainingPartition7.Part r y :=
  match h with
    | (.inl h) => ⟨0, by decide, h⟩
    | (.inr h) => ⟨1, by decide, h⟩
theorem RemainingPartition7.keeps_holds : RemainingPartition7.keeps.Holds RemainingPartition7.layout :=
  KeptMsg.holds RemainingPartition7.lawful RemainingPartition7.sameK (stop := fun v t => RemainingPartition7.ends v t 1) (c := fun v t => RemainingPartition7.cutAt v t 0) (fun _ _ _ => rfl) RemainingPartition7.cutsK (c0 := RemainingPartition7.first 0) rfl RemainingPartition7.partsK RemainingPartition7.part_of RemainingPartition7.filled (by decide) (by decide)

/-- message/messages.gen.go:3232-3252 `ControlledShutdownResponse.Decode`, with the receiver kept -/
def ControlledShutdownResponse.decodeK (version : Int16) : KDec ControlledShutdownResponse :=
    KDec.field Dec.int16 0 (fun t x => { t with ErrorCode := x }) ;|>
    KDec.fieldStructs (RemainingPartition7.decodeK version {}) {} (fun t x => { t with RemainingPartitions := x })

/-- Where the fields of `ControlledShutdownResponse` end. -/
def ControlledShutdownResponse.ends (version : Int16) (t : ControlledShutdownResponse) : Nat → Nat :=
  Cut.ends 0 [Wire.int16 t.ErrorCode,
    Wire.array (RemainingPartition7.wire version) t.RemainingPartitions]

/-- What is left of `t` if only its first `n` bytes are there. -/
def ControlledShutdownResponse.cut (version : Int16) (n : Nat) (t : ControlledShutdownResponse) : ControlledShutdownResponse :=
  { ErrorCode := Cut.field n (t.ends version 0) t.ErrorCode 0,
    RemainingPartitions := Cut.array n (t.ends version 0) (RemainingPartition7.wire version) (fun x => x.seen version {}) {} t.RemainingPartitions }

/-- The same after the first `k` statements of `Decode`. -/
def ControlledShutdownResponse.cutAt (version : Int16) (t : ControlledShutdownResponse) (k n : Nat) : ControlledShutdownResponse :=
  { ErrorCode := upto k 0 (Cut.field n (t.ends version 0) t.ErrorCode 0) 0,
    RemainingPartitions := upto k 1 (Cut.array n (t.ends version 0) (RemainingPartition7.wire version) (fun x => x.seen version {}) {} t.RemainingPartitions) none }

/-- The first `k` fields of `y`, and zeros. -/
def ControlledShutdownResponse.first (k : Nat) (y : ControlledShutdownResponse) : ControlledShutdownResponse :=
  { ErrorCode := upto k 0 y.ErrorCode 0,
    RemainingPartitions := upto k 1 y.RemainingPartitions none }

/-- `r` is a beginning of `y`, and zeros. -/
def ControlledShutdownResponse.Part (r y : ControlledShutdownResponse) : Prop :=
  (∃ k, k < 2 ∧ r = y.first k) ∨
    Cut.begun {} (fun t => t.RemainingPartitions) (fun t x => { t with RemainingPartitions := x }) (ControlledShutdownResponse.first 1) r y

/-- `ControlledShutdownResponse` with its receiver kept. -/
def ControlledShutdownResponse.keeps : KeptMsg ControlledShutdownResponse.type := { decode := ControlledShutdownResponse.decodeK, cut := ControlledShutdownResponse.cut, Part := ControlledShutdownResponse.Part }

theorem ControlledShutdownResponse.sameK (version : Int16) : KStep (ControlledShutdownResponse.decodeK version) (ControlledShutdownResponse.decode version) :=
  (KStep.field)
    |>.andThen (KStep.structs (fun _ => rfl) (RemainingPartition7.sameK version {}))
theorem ControlledShutdownResponse.cutsK (version : Int16) (t : ControlledShutdownResponse) (h : t.Fits version) :
    Cuts (ControlledShutdownResponse.decodeK version) 0 (ControlledShutdownResponse.wire version t) (ControlledShutdownResponse.ends version t 1) (ControlledShutdownResponse.cutAt version t 0) (ControlledShutdownResponse.cutAt version t 2) :=
  (.field (reads_int16 t.ErrorCode) (fun _ => rfl) (fun _ => rfl) : Cuts _ 0 _ (ControlledShutdownResponse.ends version t 0) (ControlledShutdownResponse.cutAt version t 0) (ControlledShutdownResponse.cutAt version t 1))
    |>.andThen (.structs (RemainingPartition7.sameK version {}) (fun x hx => RemainingPartition7.reads version x hx {}) h.RemainingPartitions (fun _ => rfl) (fun _ => rfl) : Cuts _ (ControlledShutdownResponse.ends version t 0) _ (ControlledShutdownResponse.ends version t 1) (ControlledShutdownResponse.cutAt version t 1) (ControlledShutdownResponse.cutAt version t 2))
theorem ControlledShutdownResponse.partsK (version : Int16) : Parts (ControlledShutdownResponse.decodeK version) (ControlledShutdownResponse.first 0) (ControlledShutdownResponse.first 2) (fun r y => ((r = ControlledShutdownResponse.first 0 y) ∨ (r = ControlledShutdownResponse.first 1 y ∨ Cut.begun {} (fun t => t.RemainingPartitions) (fun t x => { t with RemainingPartitions := x }) (ControlledShutdownResponse.first 1) r y))) :=
  (.field Longer.int16 (fun _ => rfl) (fun _ _ => rfl) (fun _ _ => rfl) (fun _ => rfl) : Parts (KDec.field Dec.int16 0 (fun t x => { t with ErrorCode := x })) (ControlledShutdownResponse.first 0) (ControlledShutdownResponse.first 1) (fun r y => r = ControlledShutdownResponse.first 0 y))
    |>.andThen (.structs (get := fun (t : ControlledShutdownResponse) => t.RemainingPartitions) ((RemainingPartition7.partsK version).longer {}) (fun _ => rfl) (fun _ => rfl) (fun _ _ => rfl) (fun _ _ => rfl) (fun _ _ => rfl) (fun _ => rfl) (fun _ => rfl) : Parts (KDec.fieldStructs (RemainingPartition7.decodeK version {}) {} (fun t x => { t with RemainingPartitions := x })) (ControlledShutdownResponse.first 1) (ControlledShutdownResponse.first 2) (fun r y => r = ControlledShutdownResponse.first 1 y ∨ Cut.begun {} (fun t => t.RemainingPartitions) (fun t x => { t with RemainingPartitions := x }) (ControlledShutdownResponse.first 1) r y))
theorem ControlledShutdownResponse.filled (version : Int16) : FilledStep 6 12884934666 (ControlledShutdownResponse.decode version) :=
  ((FilledStep.field .int16)
    |>.andThen (FilledStep.structs (RemainingPartition7.filled version {}))).mono (by decide) (by decide)
theorem ControlledShutdownResponse.part_of (r y : ControlledShutdownResponse) (h : ((r = ControlledShutdownResponse.first 0 y) ∨ (r = ControlledShutdownResponse.first 1 y ∨ Cut.begun {} (fun t => t.RemainingPartitions) (fun t x => { t with RemainingPartitions := x }) (ControlledShutdownResponse.first 1) r y))) : ControlledShutdownResponse.Part r y :=
  match h with
    | (.inl h) => .inl ⟨0, by decide, h⟩
    | (.inr (.inl h)) => .inl ⟨1, by decide, h⟩
    | (.inr (.inr h)) => (.inr h)
theorem ControlledShutdownResponse.keeps_holds : ControlledShutdownResponse.keeps.Holds ControlledShutdownResponse.layout :=
  KeptMsg.holds ControlledShutdownResponse.lawful ControlledShutdownResponse.sameK (stop := fun v t => ControlledShutdownResponse.ends v t 1) (c := fun v t => ControlledShutdownResponse.cutAt v t 0) (fun _ _ _ => rfl) ControlledShutdownResponse.cutsK (c0 := ControlledShutdownResponse.first 0) rfl ControlledShutdownResponse.partsK ControlledShutdownResponse.part_of ControlledShutdownResponse.filled (by decide) (by decide)

/-- The structures of the ControlledShutdown messages. -/
def keptControlledShutdown : List (Σ (M : MsgType) (_ : Layout M), KeptMsg M) :=
  [⟨ControlledShutdownRequest.type, ControlledShutdownRequest.layout, ControlledShutdownRequest.keeps⟩,
   ⟨ControlledShutdownResponse.type, ControlledShutdownResponse.layout, ControlledShutdownResponse.keeps⟩,
   ⟨RemainingPartition7.type, RemainingPartition7.layout, RemainingPartition7.keeps⟩]
theorem keptControlledShutdown_holds : ∀ p ∈ keptControlledShutdown, p.2.2.Holds p.2.1 := by
  unfold keptControlledShutdown
  simp only [List.forall_mem_cons]
  exact ⟨ControlledShutdownRequest.keeps_holds, ControlledShutdownResponse.keeps_holds, RemainingPartition7.keeps_holds, fun _ h => absurd h (by simp)⟩

end Kafka.Msg
