import Verif.Message.KeptLemmas
import Verif.Gen.Proof.UpdateMetadata
/-!
Generated by tools/gen_messages.py: what is in the UpdateMetadata messages after an error.
-/
set_option linter.unusedVariables false
namespace Kafka.Msg

/-- message/messages.gen.go:3091-3134 `UpdateMetadataPartitionState6.Decode`, with the receiver kept -/
def UpdateMetadataPartitionState6.decodeK (version : Int16) : KDec UpdateMetadataPartitionState6 :=
    KDec.onlyIf (version ≥ 0 ∧ version ≤ 4) (KDec.field Dec.string [] (fun t x => { t with TopicName := x })) ;|>
    KDec.field Dec.int32 0 (fun t x => { t with PartitionIndex := x }) ;|>
    KDec.field Dec.int32 0 (fun t x => { t with ControllerEpoch := x }) ;|>
    KDec.field Dec.int32 0 (fun t x => { t with Leader := x }) ;|>
    KDec.field Dec.int32 0 (fun t x => { t with LeaderEpoch := x }) ;|>
    KDec.field Dec.int32Array none (fun t x => { t with Isr := x }) ;|>
    KDec.field Dec.int32 0 (fun t x => { t with ZkVersion := x }) ;|>
    KDec.field Dec.int32Array none (fun t x => { t with Replicas := x }) ;|>
    KDec.onlyIf (version ≥ 4) (KDec.field Dec.int32Array none (fun t x => { t with OfflineReplicas := x }))

/-- Where the fields of `UpdateMetadataPartitionState6` end. -/
def UpdateMetadataPartitionState6.ends (version : Int16) (t : UpdateMetadataPartitionState6) : Nat → Nat :=
  Cut.ends 0 [Wire.when (version ≥ 0 ∧ version ≤ 4) (Wire.string t.TopicName),
    Wire.int32 t.PartitionIndex,
    Wire.int32 t.ControllerEpoch,
    Wire.int32 t.Leader,
    Wire.int32 t.LeaderEpoch,
    Wire.int32Array t.Isr,
    Wire.int32 t.ZkVersion,
    Wire.int32Array t.Replicas,
    Wire.when (version ≥ 4) (Wire.int32Array t.OfflineReplicas)]

/-- What is left of `t` if only its first `n` bytes are there. -/
def UpdateMetadataPartitionState6.cut (version : Int16) (n : Nat) (t : UpdateMetadataPartitionState6) : UpdateMetadataPartitionState6 :=
  { TopicName := Cut.gate (version ≥ 0 ∧ version ≤ 4) (Cut.field n (t.ends version 0) t.TopicName []) [],
    PartitionIndex := Cut.field n (t.ends version 1) t.PartitionIndex 0,
    ControllerEpoch := Cut.field n (t.ends version 2) t.ControllerEpoch 0,
    Leader := Cut.field n (t.ends version 3) t.Leader 0,
    LeaderEpoch := Cut.field n (t.ends version 4) t.LeaderEpoch 0,
    Isr := Cut.field n (t.ends version 5) t.Isr none,
    ZkVersion := Cut.field n (t.ends version 6) t.ZkVersion 0,
    Replicas := Cut.field n (t.ends version 7) t.Replicas none,
    OfflineReplicas := Cut.gate (version ≥ 4) (Cut.field n (t.ends version 8) t.OfflineReplicas none) none }

/-- The same after the first `k` statements of `Decode`. -/
def UpdateMetadataPartitionState6.cutAt (version : Int16) (t : UpdateMetadataPartitionState6) (k n : Nat) : UpdateMetadataPartitionState6 :=
  { TopicName := upto k 0 (Cut.gate (version ≥ 0 ∧ version ≤ 4) (Cut.field n (t.ends version 0) t.TopicName []) []) [],
    PartitionIndex := upto k 1 (Cut.field n (t.ends version 1) t.PartitionIndex 0) 0,
    ControllerEpoch := upto k 2 (Cut.field n (t.ends version 2) t.ControllerEpoch 0) 0,
    Leader := upto k 3 (Cut.field n (t.ends version 3) t.Leader 0) 0,
    LeaderEpoch := upto k 4 (Cut.field n (t.ends version 4) t.LeaderEpoch 0) 0,
    Isr := upto k 5 (Cut.field n (t.ends version 5) t.Isr none) none,
    ZkVersion := upto k 6 (Cut.field n (t.ends version 6) t.ZkVersion 0) 0,
    Replicas := upto k 7 (Cut.field n (t.ends version 7) t.Replicas none) none,
    OfflineReplicas := upto k 8 (Cut.gate (version ≥ 4) (Cut.field n (t.ends version 8) t.OfflineReplicas none) none) none }

/-- The first `k` fields of `y`, and zeros. -/
def UpdateMetadataPartitionState6.first (k : Nat) (y : UpdateMetadataPartitionState6) : UpdateMetadataPartitionState6 :=
  { TopicName := upto k 0 y.TopicName [],
    PartitionIndex := upto k 1 y.PartitionIndex 0,
    ControllerEpoch := upto k 2 y.ControllerEpoch 0,
    Leader := upto k 3 y.Leader 0,
    LeaderEpoch := upto k 4 y.LeaderEpoch 0,
    Isr := upto k 5 y.Isr none,
    ZkVersion := upto k 6 y.ZkVersion 0,
    Replicas := upto k 7 y.Replicas none,
    OfflineReplicas := upto k 8 y.OfflineReplicas none }

/-- `r` is a beginning of `y`, and zeros. -/
def UpdateMetadataPartitionState6.Part (r y : UpdateMetadataPartitionState6) : Prop :=
  (∃ k, k < 9 ∧ r = y.first k)

/-- `UpdateMetadataPartitionState6` with its receiver kept. -/
def UpdateMetadataPartitionState6.keeps : KeptMsg UpdateMetadataPartitionState6.type := { decode := UpdateMetadataPartitionState6.decodeK, cut := UpdateMetadataPartitionState6.cut, Part := UpdateMetadataPartitionState6.Part }

theorem UpdateMetadataPartitionState6.sameK (version : Int16) : KStep (UpdateMetadataPartitionState6.decodeK version) (UpdateMetadataPartitionState6.decode version) :=
  (KStep.onlyIf (KStep.field))
    |>.andThen (KStep.field)
    |>.andThen (KStep.field)
    |>.andThen (KStep.field)
    |>.andThen (KStep.field)
    |>.andThen (KStep.field)
    |>.andThen (KStep.field)
    |>.andThen (KStep.field)
    |>.andThen (KStep.onlyIf (KStep.field))
theorem UpdateMetadataPartitionState6.cutsK (version : Int16) (t : UpdateMetadataPartitionState6) (h : t.Fits version) :
    Cuts (UpdateMetadataPartitionState6.decodeK version) 0 (UpdateMetadataPartitionState6.wire version t) (UpdateMetadataPartitionState6.ends version t 8) (UpdateMetadataPartitionState6.cutAt version t 0) (UpdateMetadataPartitionState6.cutAt version t 9) :=
  (.optField (fun hc => reads_string (h.TopicName hc)) (fun _ => rfl) (fun _ => rfl) : Cuts _ 0 _ (UpdateMetadataPartitionState6.ends version t 0) (UpdateMetadataPartitionState6.cutAt version t 0) (UpdateMetadataPartitionState6.cutAt version t 1))
    |>.andThen (.field (reads_int32 t.PartitionIndex) (fun _ => rfl) (fun _ => rfl) : Cuts _ (UpdateMetadataPartitionState6.ends version t 0) _ (UpdateMetadataPartitionState6.ends version t 1) (UpdateMetadataPartitionState6.cutAt version t 1) (UpdateMetadataPartitionState6.cutAt version t 2))
    |>.andThen (.field (reads_int32 t.ControllerEpoch) (fun _ => rfl) (fun _ => rfl) : Cuts _ (UpdateMetadataPartitionState6.ends version t 1) _ (UpdateMetadataPartitionState6.ends version t 2) (UpdateMetadataPartitionState6.cutAt version t 2) (UpdateMetadataPartitionState6.cutAt version t 3))
    |>.andThen (.field (reads_int32 t.Leader) (fun _ => rfl) (fun _ => rfl) : Cuts _ (UpdateMetadataPartitionState6.ends version t 2) _ (UpdateMetadataPartitionState6.ends version t 3) (UpdateMetadataPartitionState6.cutAt version t 3) (UpdateMetadataPartitionState6.cutAt version t 4))
    |>.andThen (.field (reads_int32 t.LeaderEpoch) (fun _ => rfl) (fun _ => rfl) : Cuts _ (UpdateMetadataPartitionState6.ends version t 3) _ (UpdateMetadataPartitionState6.ends version t 4) (UpdateMetadataPartitionState6.cutAt version t 4) (UpdateMetadataPartitionState6.cutAt version t 5))
    |>.andThen (.field (reads_int32Array h.Isr) (fun _ => rfl) (fun _ => rfl) : Cuts _ (UpdateMetadataPartitionState6.ends version t 4) _ (UpdateMetadataPartitionState6.ends version t 5) (UpdateMetadataPartitionState6.cutAt version t 5) (UpdateMetadataPartitionState6.cutAt version t 6))
    |>.andThen (.field (reads_int32 t.ZkVersion) (fun _ => rfl) (fun _ => rfl) : Cuts _ (UpdateMetadataPartitionState6.ends version t 5) _ (UpdateMetadataPartitionState6.ends version t 6) (UpdateMetadataPartitionState6.cutAt version t 6) (UpdateMetadataPartitionState6.cutAt version t 7))
    |>.andThen (.field (reads_int32Array h.Replicas) (fun _ => rfl) (fun _ => rfl) : Cuts _ (UpdateMetadataPartitionState6.ends version t 6) _ (UpdateMetadataPartitionState6.ends version t 7) (UpdateMetadataPartitionState6.cutAt version t 7) (UpdateMetadataPartitionState6.cutAt version t 8))
    |>.andThen (.optField (fun hc => reads_int32Array (h.OfflineReplicas hc)) (fun _ => rfl) (fun _ => rfl) : Cuts _ (UpdateMetadataPartitionState6.ends version t 7) _ (UpdateMetadataPartitionState6.ends version t 8) (UpdateMetadataPartitionState6.cutAt version t 8) (UpdateMetadataPartitionState6.cutAt version t 9))
theorem UpdateMetadataPartitionState6.partsK (version : Int16) : Parts (UpdateMetadataPartitionState6.decodeK version) (UpdateMetadataPartitionState6.first 0) (UpdateMetadataPartitionState6.first 9) (fun r y => (((((((((r = UpdateMetadataPartitionState6.first 0 y) ∨ (r = UpdateMetadataPartitionState6.first 1 y)) ∨ (r = UpdateMetadataPartitionState6.first 2 y)) ∨ (r = UpdateMetadataPartitionState6.first 3 y)) ∨ (r = UpdateMetadataPartitionState6.first 4 y)) ∨ (r = UpdateMetadataPartitionState6.first 5 y)) ∨ (r = UpdateMetadataPartitionState6.first 6 y)) ∨ (r = UpdateMetadataPartitionState6.first 7 y)) ∨ (r = UpdateMetadataPartitionState6.first 8 y))) :=
  (.onlyIf (.field Longer.string (fun _ => rfl) (fun _ _ => rfl) (fun _ _ => rfl) (fun _ => rfl)) (fun _ => rfl) : Parts (KDec.onlyIf (version ≥ 0 ∧ version ≤ 4) (KDec.field Dec.string [] (fun t x => { t with TopicName := x }))) (UpdateMetadataPartitionState6.first 0) (UpdateMetadataPartitionState6.first 1) (fun r y => r = UpdateMetadataPartitionState6.first 0 y))
    |>.andThen (.field Longer.int32 (fun _ => rfl) (fun _ _ => rfl) (fun _ _ => rfl) (fun _ => rfl) : Parts (KDec.field Dec.int32 0 (fun t x => { t with PartitionIndex := x })) (UpdateMetadataPartitionState6.first 1) (UpdateMetadataPartitionState6.first 2) (fun r y => r = UpdateMetadataPartitionState6.first 1 y))
    |>.andThen (.field Longer.int32 (fun _ => rfl) (fun _ _ => rfl) (fun _ _ => rfl) (fun _ => rfl) : Parts (KDec.field Dec.int32 0 (fun t x => { t with ControllerEpoch := x })) (UpdateMetadataPartitionState6.first 2) (UpdateMetadataPartitionState6.first 3) (fun r y => r = UpdateMetadataPartitionState6.first 2 y))
    |>.andThen (.field Longer.int32 (fun _ => rfl) (fun _ _ => rfl) (fun _ _ => rfl) (fun _ => rfl) : Parts (KDec.field Dec.int32 0 (fun t x => { t with Leader := x })) (UpdateMetadataPartitionState6.first 3) (UpdateMetadataPartitionState6.first 4) (fun r y => r = UpdateMetadataPartitionState6.first 3 y))
    |>.andThen (.field Longer.int32 (fun _ => rfl) (fun _ _ => rfl) (fun _ _ => rfl) (fun _ => rfl) : Parts (KDec.field Dec.int32 0 (fun t x => { t with LeaderEpoch := x })) (UpdateMetadataPartitionState6.first 4) (UpdateMetadataPartitionState6.first 5) (fun r y => r = UpdateMetadataPartitionState6.first 4 y))
    |>.andThen (.field Longer.int32Array (fun _ => rfl) (fun _ _ => rfl) (fun _ _ => rfl) (fun _ => rfl) : Parts (KDec.field Dec.int32Array none (fun t x => { t with Isr := x })) (UpdateMetadataPartitionState6.first 5) (UpdateMetadataPartitionState6.first 6) (fun r y => r = UpdateMetadataPartitionState6.first 5 y))
    |>.andThen (.field Longer.int32 (fun _ => rfl) (fun _ _ => rfl) (fun _ _ => rfl) (fun _ => rfl) : Parts (KDec.field Dec.int32 0 (fun t x => { t with ZkVersion := x })) (UpdateMetadataPartitionState6.first 6) (UpdateMetadataPartitionState6.first 7) (fun r y => r = UpdateMetadataPartitionState6.first 6 y))
    |>.andThen (.field Longer.int32Array (fun _ => rfl) (fun _ _ => rfl) (fun _ _ => rfl) (fun _ => rfl) : Parts (KDec.field Dec.int32Array none (fun t x => { t with Replicas := x })) (UpdateMetadataPartitionState6.first 7) (UpdateMetadataPartitionState6.first 8) (fun r y => r = UpdateMetadataPartitionState6.first 7 y))
    |>.andThen (.onlyIf (.field Longer.int32Array (fun _ => rfl) (fun _ _ => rfl) (fun _ _ => rfl) (fun _ => rfl)) (fun _ => rfl) : Parts (KDec.onlyIf (version ≥ 4) (KDec.field Dec.int32Array none (fun t x => { t with OfflineReplicas := x }))) (UpdateMetadataPartitionState6.first 8) (UpdateMetadataPartitionState6.first 9) (fun r y => r = UpdateMetadataPartitionState6.first 8 y))
theorem UpdateMetadataPartitionState6.filled (version : Int16) : FilledStep 34 8589934612 (UpdateMetadataPartitionState6.decode version) :=
  ((FilledStep.onlyIf (FilledStep.field .string))
    |>.andThen (FilledStep.field .int32)
    |>.andThen (FilledStep.field .int32)
    |>.andThen (FilledStep.field .int32)
    |>.andThen (FilledStep.field .int32)
    |>.andThen (FilledStep.field .int32Array)
    |>.andThen (FilledStep.field .int32)
    |>.andThen (FilledStep.field .int32Array)
    |>.andThen (FilledStep.onlyIf (FilledStep.field .int32Array))).mono (by decide) (by decide)
theorem UpdateMetadataPartitionState6.part_of (r y : UpdateMetadataPartitionState6) (h : (((((((((r = UpdateMetadataPartitionState6.first 0 y) ∨ (r = UpdateMetadataPartitionState6.first 1 y)) ∨ (r = UpdateMetadataPartitionState6.first 2 y)) ∨ (r = UpdateMetadataPartitionState6.first 3 y)) ∨ (r = UpdateMetadataPartitionState6.first 4 y)) ∨ (r = UpdateMetadataPartitionState6.first 5 y)) ∨ (r = UpdateMetadataPartitionState6.first 6 y)) ∨ (r = UpdateMetadataPartitionState6.first 7 y)) ∨ (r = UpdateMetadataPartitionState6.first 8 y))) : UpdateMetadataPartitionState6.Part r y :=
  match h with
    | (.inl (.inl (.inl (.inl (.inl (.inl (.inl (.inl h)))))))) => ⟨0, by decide, h⟩
    | (.inl (.inl (.inl (.inl (.inl (.inl (.inl (.inr h)))))))) => ⟨1, by decide, h⟩
    | (.inl (.inl (.inl (.inl (.inl (.inl (.inr h))))))) => ⟨2, by decide, h⟩
    | (.inl (.inl (.inl (.inl (.inl (.inr h)))))) => ⟨3, by decide, h⟩
    | (.inl (.inl (.inl (.inl (.inr h))))) => ⟨4, by decide, h⟩
    | (.inl (.inl (.inl (.inr h)))) => ⟨5, by decide, h⟩
    | (.inl (.inl (.inr h))) => ⟨6, by decide, h⟩
    | (.inl (.inr h)) => ⟨7, by decide, h⟩
    | (.inr h) => ⟨8, by decide, h⟩
theorem UpdateMetadataPartitionState6.keeps_holds : UpdateMetadataPartitionState6.keeps.Holds UpdateMetadataPartitionState6.layout :=
  KeptMsg.holds UpdateMetadataPartitionState6.lawful UpdateMetadataPartitionState6.sameK (stop := fun v t => UpdateMetadataPartitionState6.ends v t 8) (c := fun v t => UpdateMetadataPartitionState6.cutAt v t 0) (fun _ _ _ => rfl) UpdateMetadataPartitionState6.cutsK (c0 := UpdateMetadataPartitionState6.first 0) rfl UpdateMetadataPartitionState6.partsK UpdateMetadataPartitionState6.part_of UpdateMetadataPartitionState6.filled (by decide) (by decide)

/-- message/messages.gen.go:2850-2874 `UpdateMetadataTopicState6.Decode`, with the receiver kept -/
def UpdateMetadataTopicState6.decodeK (version : Int16) : KDec UpdateMetadataTopicState6 :=
    KDec.onlyIf (version ≥ 5) (KDec.field Dec.string [] (fun t x => { t with TopicName := x })) ;|>
    KDec.onlyIf (version ≥ 5) (KDec.fieldStructs (UpdateMetadataPartitionState6.decodeK version {}) {} (fun t x => { t with PartitionStates := x }))

/-- Where the fields of `UpdateMetadataTopicState6` end. -/
def UpdateMetadataTopicState6.ends (version : Int16) (t : UpdateMetadataTopicState6) : Nat → Nat :=
  Cut.ends 0 [Wire.when (version ≥ 5) (Wire.string t.TopicName),
    Wire.when (version ≥ 5) (Wire.array (UpdateMetadataPartitionState6.wire version) t.PartitionStates)]

/-- What is left of `t` if only its first `n` bytes are there. -/
def UpdateMetadataTopicState6.cut (version : Int16) (n : Nat) (t : UpdateMetadataTopicState6) : UpdateMetadataTopicState6 :=
  { TopicName := Cut.gate (version ≥ 5) (Cut.field n (t.ends version 0) t.TopicName []) [],
    PartitionStates := Cut.gate (version ≥ 5) (Cut.array n (t.ends version 0) (UpdateMetadataPartitionState6.wire version) (fun x => x.seen version {}) {} t.PartitionStates) none }

/-- The same after the first `k` statements of `Decode`. -/
def UpdateMetadataTopicState6.cutAt (version : Int16) (t : UpdateMetadataTopicState6) (k n : Nat) : UpdateMetadataTopicState6 :=
  { TopicName := upto k 0 (Cut.gate (version ≥ 5) (Cut.field n (t.ends version 0) t.TopicName []) []) [],
    PartitionStates := upto k 1 (Cut.gate (version ≥ 5) (Cut.array n (t.ends version 0) (UpdateMetadataPartitionState6.wire version) (fun x => x.seen version {}) {} t.PartitionStates) none) none }

/-- The first `k` fields of `y`, and zeros. -/
def UpdateMetadataTopicState6.first (k : Nat) (y : UpdateMetadataTopicState6) : UpdateMetadataTopicState6 :=
  { TopicName := upto k 0 y.TopicName [],
    PartitionStates := upto k 1 y.PartitionStates none }

/-- `r` is a beginning of `y`, and zeros. -/
def UpdateMetadataTopicState6.Part (r y : UpdateMetadataTopicState6) : Prop :=
  (∃ k, k < 2 ∧ r = y.first k) ∨
    Cut.begun {} (fun t => t.PartitionStates) (fun t x => { t with PartitionStates := x }) (UpdateMetadataTopicState6.first 1) r y

/-- `UpdateMetadataTopicState6` with its receiver kept. -/
def UpdateMetadataTopicState6.keeps : KeptMsg UpdateMetadataTopicState6.type := { decode := UpdateMetadataTopicState6.decodeK, cut := UpdateMetadataTopicState6.cut, Part := UpdateMetadataTopicState6.Part }

theorem UpdateMetadataTopicState6.sameK (version : Int16) : KStep (UpdateMetadataTopicState6.decodeK version) (UpdateMetadataTopicState6.decode version) :=
  (KStep.onlyIf (KStep.field))
    |>.andThen (KStep.onlyIf (KStep.structs (fun _ => rfl) (UpdateMetadataPartitionState6.sameK version {})))
theorem UpdateMetadataTopicState6.cutsK (version : Int16) (t : UpdateMetadataTopicState6) (h : t.Fits version) :
    Cuts (UpdateMetadataTopicState6.decodeK version) 0 (UpdateMetadataTopicState6.wire version t) (UpdateMetadataTopicState6.ends version t 1) (UpdateMetadataTopicState6.cutAt version t 0) (UpdateMetadataTopicState6.cutAt version t 2) :=
  (.optField (fun hc => reads_string (h.TopicName hc)) (fun _ => rfl) (fun _ => rfl) : Cuts _ 0 _ (UpdateMetadataTopicState6.ends version t 0) (UpdateMetadataTopicState6.cutAt version t 0) (UpdateMetadataTopicState6.cutAt version t 1))
    |>.andThen (.optStructs (UpdateMetadataPartitionState6.sameK version {}) (fun x hx => UpdateMetadataPartitionState6.reads version x hx {}) h.PartitionStates (fun _ => rfl) (fun _ => rfl) : Cuts _ (UpdateMetadataTopicState6.ends version t 0) _ (UpdateMetadataTopicState6.ends version t 1) (UpdateMetadataTopicState6.cutAt version t 1) (UpdateMetadataTopicState6.cutAt version t 2))
theorem UpdateMetadataTopicState6.partsK (version : Int16) : Parts (UpdateMetadataTopicState6.decodeK version) (UpdateMetadataTopicState6.first 0) (UpdateMetadataTopicState6.first 2) (fun r y => ((r = UpdateMetadataTopicState6.first 0 y) ∨ (r = UpdateMetadataTopicState6.first 1 y ∨ Cut.begun {} (fun t => t.PartitionStates) (fun t x => { t with PartitionStates := x }) (UpdateMetadataTopicState6.first 1) r y))) :=
  (.onlyIf (.field Longer.string (fun _ => rfl) (fun _ _ => rfl) (fun _ _ => rfl) (fun _ => rfl)) (fun _ => rfl) : Parts (KDec.onlyIf (version ≥ 5) (KDec.field Dec.string [] (fun t x => { t with TopicName := x }))) (UpdateMetadataTopicState6.first 0) (UpdateMetadataTopicState6.first 1) (fun r y => r = UpdateMetadataTopicState6.first 0 y))
    |>.andThen (.onlyIf (.structs (get := fun (t : UpdateMetadataTopicState6) => t.PartitionStates) ((UpdateMetadataPartitionState6.partsK version).longer {}) (fun _ => rfl) (fun _ => rfl) (fun _ _ => rfl) (fun _ _ => rfl) (fun _ _ => rfl) (fun _ => rfl) (fun _ => rfl)) (fun _ => rfl) : Parts (KDec.onlyIf (version ≥ 5) (KDec.fieldStructs (UpdateMetadataPartitionState6.decodeK version {}) {} (fun t x => { t with PartitionStates := x }))) (UpdateMetadataTopicState6.first 1) (UpdateMetadataTopicState6.first 2) (fun r y => r = UpdateMetadataTopicState6.first 1 y ∨ Cut.begun {} (fun t => t.PartitionStates) (fun t x => { t with PartitionStates := x }) (UpdateMetadataTopicState6.first 1) r y))
theorem UpdateMetadataTopicState6.filled (version : Int16) : FilledStep 6 81604378648 (UpdateMetadataTopicState6.decode version) :=
  ((FilledStep.onlyIf (FilledStep.field .string))
    |>.andThen (FilledStep.onlyIf (FilledStep.structs (UpdateMetadataPartitionState6.filled version {})))).mono (by decide) (by decide)
theorem UpdateMetadataTopicState6.part_of (r y : UpdateMetadataTopicState6) (h : ((r = UpdateMetadataTopicState6.first 0 y) ∨ (r = UpdateMetadataTopicState6.first 1 y ∨ Cut.begun {} (fun t => t.PartitionStates) (fun t x => { t with PartitionStates := x }) (UpdateMetadataTopicState6.first 1) r y))) : UpdateMetadataTopicState6.Part r y :=
  match h with
    | (.inl h) => .inl ⟨0, by decide, h⟩
    | (.inr (.inl h)) => .inl ⟨1, by decide, h⟩
    | (.inr (.inr h)) => (.inr h)
theorem UpdateMetadataTopicState6.keeps_holds : UpdateMetadataTopicState6.keeps.Holds UpdateMetadataTopicState6.layout :=
  KeptMsg.holds UpdateMetadataTopicState6.lawful UpdateMetadataTopicState6.sameK (stop := fun v t => UpdateMetadataTopicState6.ends v t 1) (c := fun v t => UpdateMetadataTopicState6.cutAt v t 0) (fun _ _ _ => rfl) UpdateMetadataTopicState6.cutsK (c0 := UpdateMetadataTopicState6.first 0) rfl UpdateMetadataTopicState6.partsK UpdateMetadataTopicState6.part_of UpdateMetadataTopicState6.filled (by decide) (by decide)

/-- message/messages.gen.go:3013-3040 `UpdateMetadataEndpoint6.Decode`, with the receiver kept -/
def UpdateMetadataEndpoint6.decodeK (version : Int16) : KDec UpdateMetadataEndpoint6 :=
    KDec.onlyIf (version ≥ 1) (KDec.field Dec.int32 0 (fun t x => { t with Port := x })) ;|>
    KDec.onlyIf (version ≥ 1) (KDec.field Dec.string [] (fun t x => { t with Host := x })) ;|>
    KDec.onlyIf (version ≥ 3) (KDec.field Dec.string [] (fun t x => { t with Listener := x })) ;|>
    KDec.onlyIf (version ≥ 1) (KDec.field Dec.int16 0 (fun t x => { t with SecurityProtocol := x }))

/-- Where the fields of `UpdateMetadataEndpoint6` end. -/
def UpdateMetadataEndpoint6.ends (version : Int16) (t : UpdateMetadataEndpoint6) : Nat → Nat :=
  Cut.ends 0 [Wire.when (version ≥ 1) (Wire.int32 t.Port),
    Wire.when (version ≥ 1) (Wire.string t.Host),
    Wire.when (version ≥ 3) (Wire.string t.Listener),
    Wire.when (version ≥ 1) (Wire.int16 t.SecurityProtocol)]

/-- What is left of `t` if only its first `n` bytes are there. -/
def UpdateMetadataEndpoint6.cut (version : Int16) (n : Nat) (t : UpdateMetadataEndpoint6) : UpdateMetadataEndpoint6 :=
  { Port := Cut.gate (version ≥ 1) (Cut.field n (t.ends version 0) t.Port 0) 0,
    Host := Cut.gate (version ≥ 1) (Cut.field n (t.ends version 1) t.Host []) [],
    Listener := Cut.gate (version ≥ 3) (Cut.field n (t.ends version 2) t.Listener []) [],
    SecurityProtocol := Cut.gate (version ≥ 1) (Cut.field n (t.ends version 3) t.SecurityProtocol 0) 0 }

/-- The same after the first `k` statements of `Decode`. -/
def UpdateMetadataEndpoint6.cutAt (version : Int16) (t : UpdateMetadataEndpoint6) (k n : Nat) : UpdateMetadataEndpoint6 :=
  { Port := upto k 0 (Cut.gate (version ≥ 1) (Cut.field n (t.ends version 0) t.Port 0) 0) 0,
    Host := upto k 1 (Cut.gate (version ≥ 1) (Cut.field n (t.ends version 1) t.Host []) []) [],
    Listener := upto k 2 (Cut.gate (version ≥ 3) (Cut.field n (t.ends version 2) t.Listener []) []) [],
    SecurityProtocol := upto k 3 (Cut.gate (version ≥ 1) (Cut.field n (t.ends version 3) t.SecurityProtocol 0) 0) 0 }

/-- The first `k` fields of `y`, and zeros. -/
def UpdateMetadataEndpoint6.first (k : Nat) (y : UpdateMetadataEndpoint6) : UpdateMetadataEndpoint6 :=
  { Port := upto k 0 y.Port 0,
    Host := upto k 1 y.Host [],
    Listener := upto k 2 y.Listener [],
    SecurityProtocol := upto k 3 y.SecurityProtocol 0 }

/-- `r` is a beginning of `y`, and zeros. -/
def UpdateMetadataEndpoint6.Part (r y : UpdateMetadataEndpoint6) : Prop :=
  (∃ k, k < 4 ∧ r = y.first k)

/-- `UpdateMetadataEndpoint6` with its receiver kept. -/
def UpdateMetadataEndpoint6.keeps : KeptMsg UpdateMetadataEndpoint6.type := { decode := UpdateMetadataEndpoint6.decodeK, cut := UpdateMetadataEndpoint6.cut, Part := UpdateMetadataEndpoint6.Part }

theorem UpdateMetadataEndpoint6.sameK (version : Int16) : KStep (UpdateMetadataEndpoint6.decodeK version) (UpdateMetadataEndpoint6.decode version) :=
  (KStep.onlyIf (KStep.field))
    |>.andThen (KStep.onlyIf (KStep.field))
    |>.andThen (KStep.onlyIf (KStep.field))
    |>.andThen (KStep.onlyIf (KStep.field))
theorem UpdateMetadataEndpoint6.cutsK (version : Int16) (t : UpdateMetadataEndpoint6) (h : t.Fits version) :
    Cuts (UpdateMetadataEndpoint6.decodeK version) 0 (UpdateMetadataEndpoint6.wire version t) (UpdateMetadataEndpoint6.ends version t 3) (UpdateMetadataEndpoint6.cutAt version t 0) (UpdateMetadataEndpoint6.cutAt version t 4) :=
  (.optField (fun _ => reads_int32 t.Port) (fun _ => rfl) (fun _ => rfl) : Cuts _ 0 _ (UpdateMetadataEndpoint6.ends version t 0) (UpdateMetadataEndpoint6.cutAt version t 0) (UpdateMetadataEndpoint6.cutAt version t 1))
    |>.andThen (.optField (fun hc => reads_string (h.Host hc)) (fun _ => rfl) (fun _ => rfl) : Cuts _ (UpdateMetadataEndpoint6.ends version t 0) _ (UpdateMetadataEndpoint6.ends version t 1) (UpdateMetadataEndpoint6.cutAt version t 1) (UpdateMetadataEndpoint6.cutAt version t 2))
    |>.andThen (.optField (fun hc => reads_string (h.Listener hc)) (fun _ => rfl) (fun _ => rfl) : Cuts _ (UpdateMetadataEndpoint6.ends version t 1) _ (UpdateMetadataEndpoint6.ends version t 2) (UpdateMetadataEndpoint6.cutAt version t 2) (UpdateMetadataEndpoint6.cutAt version t 3))
    |>.andThen (.optField (fun _ => reads_int16 t.SecurityProtocol) (fun _ => rfl) (fun _ => rfl) : Cuts _ (UpdateMetadataEndpoint6.ends version t 2) _ (UpdateMetadataEndpoint6.ends version t 3) (UpdateMetadataEndpoint6.cutAt version t 3) (UpdateMetadataEndpoint6.cutAt version t 4))
theorem UpdateMetadataEndpoint6.partsK (version : Int16) : Parts (UpdateMetadataEndpoint6.decodeK version) (UpdateMetadataEndpoint6.first 0) (UpdateMetadataEndpoint6.first 4) (fun r y => ((((r = UpdateMetadataEndpoint6.first 0 y) ∨ (r = UpdateMetadataEndpoint6.first 1 y)) ∨ (r = UpdateMetadataEndpoint6.first 2 y)) ∨ (r = UpdateMetadataEndpoint6.first 3 y))) :=
  (.onlyIf (.field Longer.int32 (fun _ => rfl) (fun _ _ => rfl) (fun _ _ => rfl) (fun _ => rfl)) (fun _ => rfl) : Parts (KDec.onlyIf (version ≥ 1) (KDec.field Dec.int32 0 (fun t x => { t with Port := x }))) (UpdateMetadataEndpoint6.first 0) (UpdateMetadataEndpoint6.first 1) (fun r y => r = UpdateMetadataEndpoint6.first 0 y))
    |>.andThen (.onlyIf (.field Longer.string (fun _ => rfl) (fun _ _ => rfl) (fun _ _ => rfl) (fun _ => rfl)) (fun _ => rfl) : Parts (KDec.onlyIf (version ≥ 1) (KDec.field Dec.string [] (fun t x => { t with Host := x }))) (UpdateMetadataEndpoint6.first 1) (UpdateMetadataEndpoint6.first 2) (fun r y => r = UpdateMetadataEndpoint6.first 1 y))
    |>.andThen (.onlyIf (.field Longer.string (fun _ => rfl) (fun _ _ => rfl) (fun _ _ => rfl) (fun _ => rfl)) (fun _ => rfl) : Parts (KDec.onlyIf (version ≥ 3) (KDec.field Dec.string [] (fun t x => { t with Listener := x }))) (UpdateMetadataEndpoint6.first 2) (UpdateMetadataEndpoint6.first 3) (fun r y => r = UpdateMetadataEndpoint6.first 2 y))
    |>.andThen (.onlyIf (.field Longer.int16 (fun _ => rfl) (fun _ _ => rfl) (fun _ _ => rfl) (fun _ => rfl)) (fun _ => rfl) : Parts (KDec.onlyIf (version ≥ 1) (KDec.field Dec.int16 0 (fun t x => { t with SecurityProtocol := x }))) (UpdateMetadataEndpoint6.first 3) (UpdateMetadataEndpoint6.first 4) (fun r y => r = UpdateMetadataEndpoint6.first 3 y))
theorem UpdateMetadataEndpoint6.filled (version : Int16) : FilledStep 10 32774 (UpdateMetadataEndpoint6.decode version) :=
  ((FilledStep.onlyIf (FilledStep.field .int32))
    |>.andThen (FilledStep.onlyIf (FilledStep.field .string))
    |>.andThen (FilledStep.onlyIf (FilledStep.field .string))
    |>.andThen (FilledStep.onlyIf (FilledStep.field .int16))).mono (by decide) (by decide)
theorem UpdateMetadataEndpoint6.part_of (r y : UpdateMetadataEndpoint6) (h : ((((r = UpdateMetadataEndpoint6.first 0 y) ∨ (r = UpdateMetadataEndpoint6.first 1 y)) ∨ (r = UpdateMetadataEndpoint6.first 2 y)) ∨ (r = UpdateMetadataEndpoint6.first 3 y))) : UpdateMetadataEndpoint6.Part r y :=
  match h with
    | (.inl (.inl (.inl h))) => ⟨0, by decide, h⟩
    | (.inl (.inl (.inr h))) => ⟨1, by decide, h⟩
    | (.inl (.inr h)) => ⟨2, by decide, h⟩
    | (.inr h) => ⟨3, by decide, h⟩
theorem UpdateMetadataEndpoint6.keeps_holds : UpdateMetadataEndpoint6.keeps.Holds UpdateMetadataEndpoint6.layout :=
  KeptMsg.holds UpdateMetadataEndpoint6.lawful UpdateMetadataEndpoint6.sameK (stop := fun v t => UpdateMetadataEndpoint6.ends v t 3) (c := fun v t => UpdateMetadataEndpoint6.cutAt v t 0) (fun _ _ _ => rfl) UpdateMetadataEndpoint6.cutsK (c0 := UpdateMetadataEndpoint6.first 0) rfl UpdateMetadataEndpoint6.partsK UpdateMetadataEndpoint6.part_of UpdateMetadataEndpoint6.filled (by decide) (by decide)

/-- message/messages.gen.go:2929-2969 `UpdateMetadataBroker6.Decode`, with the receiver kept -/
def UpdateMetadataBroker6.decodeK (version : Int16) : KDec UpdateMetadataBroker6 :=
    KDec.field Dec.int32 0 (fun t x => { t with Id := x }) ;|>
    KDec.onlyIf (version ≥ 0 ∧ version ≤ 0) (KDec.field Dec.string [] (fun t x => { t with V0Host := x })) ;|>
    KDec.onlyIf (version ≥ 0 ∧ version ≤ 0) (KDec.field Dec.int32 0 (fun t x => { t with V0Port := x })) ;|>
    KDec.onlyIf (version ≥ 1) (KDec.fieldStructs (UpdateMetadataEndpoint6.decodeK version {}) {} (fun t x => { t with Endpoints := x })) ;|>
    KDec.onlyIf (version ≥ 2) (KDec.field Dec.string [] (fun t x => { t with Rack := x }))

/-- Where the fields of `UpdateMetadataBroker6` end. -/
def UpdateMetadataBroker6.ends (version : Int16) (t : UpdateMetadataBroker6) : Nat → Nat :=
  Cut.ends 0 [Wire.int32 t.Id,
    Wire.when (version ≥ 0 ∧ version ≤ 0) (Wire.string t.V0Host),
    Wire.when (version ≥ 0 ∧ version ≤ 0) (Wire.int32 t.V0Port),
    Wire.when (version ≥ 1) (Wire.array (UpdateMetadataEndpoint6.wire version) t.Endpoints),
    Wire.when (version ≥ 2) (Wire.string t.Rack)]

/-- What is left of `t` if only its first `n` bytes are there. -/
def UpdateMetadataBroker6.cut (version : Int16) (n : Nat) (t : UpdateMetadataBroker6) : UpdateMetadataBroker6 :=
  { Id := Cut.field n (t.ends version 0) t.Id 0,
    V0Host := Cut.gate (version ≥ 0 ∧ version ≤ 0) (Cut.field n (t.ends version 1) t.V0Host []) [],
    V0Port := Cut.gate (version ≥ 0 ∧ version ≤ 0) (Cut.field n (t.ends version 2) t.V0Port 0) 0,
    Endpoints := Cut.gate (version ≥ 1) (Cut.array n (t.ends version 2) (UpdateMetadataEndpoint6.wire version) (fun x => x.seen version {}) {} t.Endpoints) none,
    Rack := Cut.gate (version ≥ 2) (Cut.field n (t.ends version 4) t.Rack []) [] }

/-- The same after the first `k` statements of `Decode`. -/
def UpdateMetadataBroker6.cutAt (version : Int16) (t : UpdateMetadataBroker6) (k n : Nat) : UpdateMetadataBroker6 :=
  { Id := upto k 0 (Cut.field n (t.ends version 0) t.Id 0) 0,
    V0Host := upto k 1 (Cut.gate (version ≥ 0 ∧ version ≤ 0) (Cut.field n (t.ends version 1) t.V0Host []) []) [],
    V0Port := upto k 2 (Cut.gate (version ≥ 0 ∧ version ≤ 0) (Cut.field n (t.ends version 2) t.V0Port 0) 0) 0,
    Endpoints := upto k 3 (Cut.gate (version ≥ 1) (Cut.array n (t.ends version 2) (UpdateMetadataEndpoint6.wire version) (fun x => x.seen version {}) {} t.Endpoints) none) none,
    Rack := upto k 4 (Cut.gate (version ≥ 2) (Cut.field n (t.ends version 4) t.Rack []) []) [] }

/-- The first `k` fields of `y`, and zeros. -/
def UpdateMetadataBroker6.first (k : Nat) (y : UpdateMetadataBroker6) : UpdateMetadataBroker6 :=
  { Id := upto k 0 y.Id 0,
    V0Host := upto k 1 y.V0Host [],
    V0Port := upto k 2 y.V0Port 0,
    Endpoints := upto k 3 y.Endpoints none,
    Rack := upto k 4 y.Rack [] }

/-- `r` is a beginning of `y`, and zeros. -/
def UpdateMetadataBroker6.Part (r y : UpdateMetadataBroker6) : Prop :=
  (∃ k, k < 5 ∧ r = y.first k) ∨
    Cut.begun {} (fun t => t.Endpoints) (fun t x => { t with Endpoints := x }) (UpdateMetadataBroker6.first 3) r y

/-- `UpdateMetadataBroker6` with its receiver kept. -/
def UpdateMetadataBroker6.keeps : KeptMsg UpdateMetadataBroker6.type := { decode := UpdateMetadataBroker6.decodeK, cut := UpdateMetadataBroker6.cut, Part := UpdateMetadataBroker6.Part }

theorem UpdateMetadataBroker6.sameK (version : Int16) : KStep (UpdateMetadataBroker6.decodeK version) (UpdateMetadataBroker6.decode version) :=
  (KStep.field)
    |>.andThen (KStep.onlyIf (KStep.field))
    |>.andThen (KStep.onlyIf (KStep.field))
    |>.andThen (KStep.onlyIf (KStep.structs (fun _ => rfl) (UpdateMetadataEndpoint6.sameK version {})))
    |>.andThen (KStep.onlyIf (KStep.field))
theorem UpdateMetadataBroker6.cutsK (version : Int16) (t : UpdateMetadataBroker6) (h : t.Fits version) :
    Cuts (UpdateMetadataBroker6.decodeK version) 0 (UpdateMetadataBroker6.wire version t) (UpdateMetadataBroker6.ends version t 4) (UpdateMetadataBroker6.cutAt version t 0) (UpdateMetadataBroker6.cutAt version t 5) :=
  (.field (reads_int32 t.Id) (fun _ => rfl) (fun _ => rfl) : Cuts _ 0 _ (UpdateMetadataBroker6.ends version t 0) (UpdateMetadataBroker6.cutAt version t 0) (UpdateMetadataBroker6.cutAt version t 1))
    |>.andThen (.optField (fun hc => reads_string (h.V0Host hc)) (fun _ => rfl) (fun _ => rfl) : Cuts _ (UpdateMetadataBroker6.ends version t 0) _ (UpdateMetadataBroker6.ends version t 1) (UpdateMetadataBroker6.cutAt version t 1) (UpdateMetadataBroker6.cutAt version t 2))
    |>.andThen (.optField (fun _ => reads_int32 t.V0Port) (fun _ => rfl) (fun _ => rfl) : Cuts _ (UpdateMetadataBroker6.ends version t 1) _ (UpdateMetadataBroker6.ends version t 2) (UpdateMetadataBroker6.cutAt version t 2) (UpdateMetadataBroker6.cutAt version t 3))
    |>.andThen (.optStructs (UpdateMetadataEndpoint6.sameK version {}) (fun x hx => UpdateMetadataEndpoint6.reads version x hx {}) h.Endpoints (fun _ => rfl) (fun _ => rfl) : Cuts _ (UpdateMetadataBroker6.ends version t 2) _ (UpdateMetadataBroker6.ends version t 3) (UpdateMetadataBroker6.cutAt version t 3) (UpdateMetadataBroker6.cutAt version t 4))
    |>.andThen (.optField (fun hc => reads_string (h.Rack hc)) (fun _ => rfl) (fun _ => rfl) : Cuts _ (UpdateMetadataBroker6.ends version t 3) _ (UpdateMetadataBroker6.ends version t 4) (UpdateMetadataBroker6.cutAt version t 4) (UpdateMetadataBroker6.cutAt version t 5))
theorem UpdateMetadataBroker6.partsK (version : Int16) : Parts (UpdateMetadataBroker6.decodeK version) (UpdateMetadataBroker6.first 0) (UpdateMetadataBroker6.first 5) (fun r y => (((((r = UpdateMetadataBroker6.first 0 y) ∨ (r = UpdateMetadataBroker6.first 1 y)) ∨ (r = UpdateMetadataBroker6.first 2 y)) ∨ (r = UpdateMetadataBroker6.first 3 y ∨ Cut.begun {} (fun t => t.Endpoints) (fun t x => { t with Endpoints := x }) (UpdateMetadataBroker6.first 3) r y)) ∨ (r = UpdateMetadataBroker6.first 4 y))) :=
  (.field Longer.int32 (fun _ => rfl) (fun _ _ => rfl) (fun _ _ => rfl) (fun _ => rfl) : Parts (KDec.field Dec.int32 0 (fun t x => { t with Id := x })) (UpdateMetadataBroker6.first 0) (UpdateMetadataBroker6.first 1) (fun r y => r = UpdateMetadataBroker6.first 0 y))
    |>.andThen (.onlyIf (.field Longer.string (fun _ => rfl) (fun _ _ => rfl) (fun _ _ => rfl) (fun _ => rfl)) (fun _ => rfl) : Parts (KDec.onlyIf (version ≥ 0 ∧ version ≤ 0) (KDec.field Dec.string [] (fun t x => { t with V0Host := x }))) (UpdateMetadataBroker6.first 1) (UpdateMetadataBroker6.first 2) (fun r y => r = UpdateMetadataBroker6.first 1 y))
    |>.andThen (.onlyIf (.field Longer.int32 (fun _ => rfl) (fun _ _ => rfl) (fun _ _ => rfl) (fun _ => rfl)) (fun _ => rfl) : Parts (KDec.onlyIf (version ≥ 0 ∧ version ≤ 0) (KDec.field Dec.int32 0 (fun t x => { t with V0Port := x }))) (UpdateMetadataBroker6.first 2) (UpdateMetadataBroker6.first 3) (fun r y => r = UpdateMetadataBroker6.first 2 y))
    |>.andThen (.onlyIf (.structs (get := fun (t : UpdateMetadataBroker6) => t.Endpoints) ((UpdateMetadataEndpoint6.partsK version).longer {}) (fun _ => rfl) (fun _ => rfl) (fun _ _ => rfl) (fun _ _ => rfl) (fun _ _ => rfl) (fun _ => rfl) (fun _ => rfl)) (fun _ => rfl) : Parts (KDec.onlyIf (version ≥ 1) (KDec.fieldStructs (UpdateMetadataEndpoint6.decodeK version {}) {} (fun t x => { t with Endpoints := x }))) (UpdateMetadataBroker6.first 3) (UpdateMetadataBroker6.first 4) (fun r y => r = UpdateMetadataBroker6.first 3 y ∨ Cut.begun {} (fun t => t.Endpoints) (fun t x => { t with Endpoints := x }) (UpdateMetadataBroker6.first 3) r y))
    |>.andThen (.onlyIf (.field Longer.string (fun _ => rfl) (fun _ _ => rfl) (fun _ _ => rfl) (fun _ => rfl)) (fun _ => rfl) : Parts (KDec.onlyIf (version ≥ 2) (KDec.field Dec.string [] (fun t x => { t with Rack := x }))) (UpdateMetadataBroker6.first 4) (UpdateMetadataBroker6.first 5) (fun r y => r = UpdateMetadataBroker6.first 4 y))
theorem UpdateMetadataBroker6.filled (version : Int16) : FilledStep 16 21474869260 (UpdateMetadataBroker6.decode version) :=
  ((FilledStep.field .int32)
    |>.andThen (FilledStep.onlyIf (FilledStep.field .string))
    |>.andThen (FilledStep.onlyIf (FilledStep.field .int32))
    |>.andThen (FilledStep.onlyIf (FilledStep.structs (UpdateMetadataEndpoint6.filled version {})))
    |>.andThen (FilledStep.onlyIf (FilledStep.field .string))).mono (by decide) (by decide)
theorem UpdateMetadataBroker6.part_of (r y : UpdateMetadataBroker6) (h : (((((r = UpdateMetadataBroker6.first 0 y) ∨ (r = UpdateMetadataBroker6.first 1 y)) ∨ (r = UpdateMetadataBroker6.first 2 y)) ∨ (r = UpdateMetadataBroker6.first 3 y ∨ Cut.begun {} (fun t => t.Endpoints) (fun t x => { t with Endpoints := x }) (UpdateMetadataBroker6.first 3) r y)) ∨ (r = UpdateMetadataBroker6.first 4 y))) : UpdateMetadataBroker6.Part r y :=
  match h with
    | (.inl (.inl (.inl (.inl h)))) => .inl ⟨0, by decide, h⟩
    | (.inl (.inl (.inl (.inr h)))) => .inl ⟨1, by decide, h⟩
    | (.inl (.inl (.inr h))) => .inl ⟨2, by decide, h⟩
    | (.inl (.inr (.inl h))) => .inl ⟨3, by decide, h⟩
    | (.inl (.inr (.inr h))) => (.inr h)
    | (.inr h) => .inl ⟨4, by decide, h⟩
theorem UpdateMetadataBroker6.keeps_holds : UpdateMetadataBroker6.keeps.Holds UpdateMetadataBroker6.layout :=
  KeptMsg.holds UpdateMetadataBroker6.lawful UpdateMetadataBroker6.sameK (stop := fun v t => UpdateMetadataBroker6.ends v t 4) (c := fun v t => UpdateMetadataBroker6.cutAt v t 0) (fun _ _ _ => rfl) UpdateMetadataBroker6.cutsK (c0 := UpdateMetadataBroker6.first 0) rfl UpdateMetadataBroker6.partsK UpdateMetadataBroker6.part_of UpdateMetadataBroker6.filled (by decide) (by decide)

/-- message/messages.gen.go:2752-2812 `UpdateMetadataRequest.Decode`, with the receiver kept -/
def UpdateMetadataRequest.decodeK (version : Int16) : KDec UpdateMetadataRequest :=
    KDec.field Dec.int32 0 (fun t x => { t with ControllerId := x }) ;|>
    KDec.field Dec.int32 0 (fun t x => { t with ControllerEpoch := x }) ;|>
    KDec.onlyIf (version ≥ 5) (KDec.field Dec.int64 0 (fun t x => { t with BrokerEpoch := x })) ;|>
    KDec.onlyIf (version ≥ 0 ∧ version ≤ 4) (KDec.fieldStructs (UpdateMetadataPartitionState6.decodeK version {}) {} (fun t x => { t with UngroupedPartitionStates := x })) ;|>
    KDec.onlyIf (version ≥ 5) (KDec.fieldStructs (UpdateMetadataTopicState6.decodeK version {}) {} (fun t x => { t with TopicStates := x })) ;|>
    KDec.fieldStructs (UpdateMetadataBroker6.decodeK version {}) {} (fun t x => { t with LiveBrokers := x })

/-- Where the fields of `UpdateMetadataRequest` end. -/
def UpdateMetadataRequest.ends (version : Int16) (t : UpdateMetadataRequest) : Nat → Nat :=
  Cut.ends 0 [Wire.int32 t.ControllerId,
    Wire.int32 t.ControllerEpoch,
    Wire.when (version ≥ 5) (Wire.int64 t.BrokerEpoch),
    Wire.when (version ≥ 0 ∧ version ≤ 4) (Wire.array (UpdateMetadataPartitionState6.wire version) t.UngroupedPartitionStates),
    Wire.when (version ≥ 5) (Wire.array (UpdateMetadataTopicState6.wire version) t.TopicStates),
    Wire.array (UpdateMetadataBroker6.wire version) t.LiveBrokers]

/-- What is left of `t` if only its first `n` bytes are there. -/
def UpdateMetadataRequest.cut (version : Int16) (n : Nat) (t : UpdateMetadataRequest) : UpdateMetadataRequest :=
  { ControllerId := Cut.field n (t.ends version 0) t.ControllerId 0,
    ControllerEpoch := Cut.field n (t.ends version 1) t.ControllerEpoch 0,
    BrokerEpoch := Cut.gate (version ≥ 5) (Cut.field n (t.ends version 2) t.BrokerEpoch 0) 0,
    UngroupedPartitionStates := Cut.gate (version ≥ 0 ∧ version ≤ 4) (Cut.array n (t.ends version 2) (UpdateMetadataPartitionState6.wire version) (fun x => x.seen version {}) {} t.UngroupedPartitionStates) none,
    TopicStates := Cut.gate (version ≥ 5) (Cut.array n (t.ends version 3) (UpdateMetadataTopicState6.wire version) (fun x => x.seen version {}) {} t.TopicStates) none,
    LiveBrokers := Cut.array n (t.ends version 4) (UpdateMetadataBroker6.wire version) (fun x => x.seen version {}) {} t.LiveBrokers }

/-- The same after the first `k` statements of `Decode`. -/
def UpdateMetadataRequest.cutAt (version : Int16) (t : UpdateMetadataRequest) (k n : Nat) : UpdateMetadataRequest :=
  { ControllerId := upto k 0 (Cut.field n (t.ends version 0) t.ControllerId 0) 0,
    ControllerEpoch := upto k 1 (Cut.field n (t.ends version 1) t.ControllerEpoch 0) 0,
    BrokerEpoch := upto k 2 (Cut.gate (version ≥ 5) (Cut.field n (t.ends version 2) t.BrokerEpoch 0) 0) 0,
    UngroupedPartitionStates := upto k 3 (Cut.gate (version ≥ 0 ∧ version ≤ 4) (Cut.array n (t.ends version 2) (UpdateMetadataPartitionState6.wire version) (fun x => x.seen version {}) {} t.UngroupedPartitionStates) none) none,
    TopicStates := upto k 4 (Cut.gate (version ≥ 5) (Cut.array n (t.ends version 3) (UpdateMetadataTopicState6.wire version) (fun x => x.seen version {}) {} t.TopicStates) none) none,
    LiveBrokers := upto k 5 (Cut.array n (t.ends version 4) (UpdateMetadataBroker6.wire version) (fun x => x.seen version {}) {} t.LiveBrokers) none }

/-- The first `k` fields of `y`, and zeros. -/
def UpdateMetadataRequest.first (k : Nat) (y : UpdateMetadataRequest) : UpdateMetadataRequest :=
  { ControllerId := upto k 0 y.ControllerId 0,
    ControllerEpoch := upto k 1 y.ControllerEpoch 0,
    BrokerEpoch := upto k 2 y.BrokerEpoch 0,
    UngroupedPartitionStates := upto k 3 y.UngroupedPartitionStates none,
    TopicStates := upto k 4 y.TopicStates none,
    LiveBrokers := upto k 5 y.LiveBrokers none }

/-- `r` is a beginning of `y`, and zeros. -/
def UpdateMetadataRequest.Part (r y : UpdateMetadataRequest) : Prop :=
  (∃ k, k < 6 ∧ r = y.first k) ∨
    Cut.begun {} (fun t => t.UngroupedPartitionStates) (fun t x => { t with UngroupedPartitionStates := x }) (UpdateMetadataRequest.first 3) r y ∨
    Cut.begun {} (fun t => t.TopicStates) (fun t x => { t with TopicStates := x }) (UpdateMetadataRequest.first 4) r y ∨
    Cut.begun {} (fun t => t.LiveBrokers) (fun t x => { t with LiveBrokers := x }) (UpdateMetadataRequest.first 5) r y

/-- `UpdateMetadataRequest` with its receiver kept. -/
def UpdateMetadataRequest.keeps : KeptMsg UpdateMetadataRequest.type := { decode := UpdateMetadataRequest.decodeK, cut := UpdateMetadataRequest.cut, Part := UpdateMetadataRequest.Part }

theorem UpdateMetadataRequest.sameK (version : Int16) : KStep (UpdateMetadataRequest.decodeK version) (UpdateMetadataRequest.decode version) :=
  (KStep.field)
    |>.andThen (KStep.field)
    |>.andThen (KStep.onlyIf (KStep.field))
    |>.andThen (KStep.onlyIf (KStep.structs (fun _ => rfl) (UpdateMetadataPartitionState6.sameK version {})))
    |>.andThen (KStep.onlyIf (KStep.structs (fun _ => rfl) (UpdateMetadataTopicState6.sameK version {})))
    |>.andThen (KStep.structs (fun _ => rfl) (UpdateMetadataBroker6.sameK version {}))
theorem UpdateMetadataRequest.cutsK (version : Int16) (t : UpdateMetadataRequest) (h : t.Fits version) :
    Cuts (UpdateMetadataRequest.decodeK version) 0 (UpdateMetadataRequest.wire version t) (UpdateMetadataRequest.ends version t 5) (UpdateMetadataRequest.cutAt version t 0) (UpdateMetadataRequest.cutAt version t 6) :=
  (.field (reads_int32 t.ControllerId) (fun _ => rfl) (fun _ => rfl) : Cuts _ 0 _ (UpdateMetadataRequest.ends version t 0) (UpdateMetadataRequest.cutAt version t 0) (UpdateMetadataRequest.cutAt version t 1))
    |>.andThen (.field (reads_int32 t.ControllerEpoch) (fun _ => rfl) (fun _ => rfl) : Cuts _ (UpdateMetadataRequest.ends version t 0) _ (UpdateMetadataRequest.ends version t 1) (UpdateMetadataRequest.cutAt version t 1) (UpdateMetadataRequest.cutAt version t 2))
    |>.andThen (.optField (fun _ => reads_int64 t.BrokerEpoch) (fun _ => rfl) (fun _ => rfl) : Cuts _ (UpdateMetadataRequest.ends version t 1) _ (UpdateMetadataRequest.ends version t 2) (UpdateMetadataRequest.cutAt version t 2) (UpdateMetadataRequest.cutAt version t 3))
    |>.andThen (.optStructs (UpdateMetadataPartitionState6.sameK version {}) (fun x hx => UpdateMetadataPartitionState6.reads version x hx {}) h.UngroupedPartitionStates (fun _ => rfl) (fun _ => rfl) : Cuts _ (UpdateMetadataRequest.ends version t 2) _ (UpdateMetadataRequest.ends version t 3) (UpdateMetadataRequest.cutAt version t 3) (UpdateMetadataRequest.cutAt version t 4))
    |>.andThen (.optStructs (UpdateMetadataTopicState6.sameK version {}) (fun x hx => UpdateMetadataTopicState6.reads version x hx {}) h.TopicStates (fun _ => rfl) (fun _ => rfl) : Cuts _ (UpdateMetadataRequest.ends version t 3) _ (UpdateMetadataRequest.ends version t 4) (UpdateMetadataRequest.cutAt version t 4) (UpdateMetadataRequest.cutAt version t 5))
    |>.andThen (.structs (UpdateMetadataBroker6.sameK version {}) (fun x hx => UpdateMetadataBroker6.reads version x hx {}) h.LiveBrokers (fun _ => rfl) (fun _ => rfl) : Cuts _ (UpdateMetadataRequest.ends version t 4) _ (UpdateMetadataRequest.ends version t 5) (UpdateMetadataRequest.cutAt version t 5) (UpdateMetadataRequest.cutAt version t 6))
theorem UpdateMetadataRequest.partsK (version : Int16) : Parts (UpdateMetadataRequest.decodeK version) (UpdateMetadataRequest.first 0) (UpdateMetadataRequest.first 6) (fun r y => ((((((r = UpdateMetadataRequest.first 0 y) ∨ (r = UpdateMetadataRequest.first 1 y)) ∨ (r = UpdateMetadataRequest.first 2 y)) ∨ (r = UpdateMetadataRequest.first 3 y ∨ Cut.begun {} (fun t => t.UngroupedPartitionStates) (fun t x => { t with UngroupedPartitionStates := x }) (UpdateMetadataRequest.first 3) r y)) ∨ (r = UpdateMetadataRequest.first 4 y ∨ Cut.begun {} (fun t => t.TopicStates) (fun t x => { t with TopicStates := x }) (UpdateMetadataRequest.first 4) r y)) ∨ (r = UpdateMetadataRequest.first 5 y ∨ Cut.begun {} (fun t => t.LiveBrokers) (fun t x => { t with LiveBrokers := x }) (UpdateMetadataRequest.first 5) r y))) :=
  (.field Longer.int32 (fun _ => rfl) (fun _ _ => rfl) (fun _ _ => rfl) (fun _ => rfl) : Parts (KDec.field Dec.int32 0 (fun t x => { t with ControllerId := x })) (UpdateMetadataRequest.first 0) (UpdateMetadataRequest.first 1) (fun r y => r = UpdateMetadataRequest.first 0 y))
    |>.andThen (.field Longer.int32 (fun _ => rfl) (fun _ _ => rfl) (fun _ _ => rfl) (fun _ => rfl) : Parts (KDec.field Dec.int32 0 (fun t x => { t with ControllerEpoch := x })) (UpdateMetadataRequest.first 1) (UpdateMetadataRequest.first 2) (fun r y => r = UpdateMetadataRequest.first 1 y))
    |>.andThen (.onlyIf (.field Longer.int64 (fun _ => rfl) (fun _ _ => rfl) (fun _ _ => rfl) (fun _ => rfl)) (fun _ => rfl) : Parts (KDec.onlyIf (version ≥ 5) (KDec.field Dec.int64 0 (fun t x => { t with BrokerEpoch := x }))) (UpdateMetadataRequest.first 2) (UpdateMetadataRequest.first 3) (fun r y => r = UpdateMetadataRequest.first 2 y))
    |>.andThen (.onlyIf (.structs (get := fun (t : UpdateMetadataRequest) => t.UngroupedPartitionStates) ((UpdateMetadataPartitionState6.partsK version).longer {}) (fun _ => rfl) (fun _ => rfl) (fun _ _ => rfl) (fun _ _ => rfl) (fun _ _ => rfl) (fun _ => rfl) (fun _ => rfl)) (fun _ => rfl) : Parts (KDec.onlyIf (version ≥ 0 ∧ version ≤ 4) (KDec.fieldStructs (UpdateMetadataPartitionState6.decodeK version {}) {} (fun t x => { t with UngroupedPartitionStates := x }))) (UpdateMetadataRequest.first 3) (UpdateMetadataRequest.first 4) (fun r y => r = UpdateMetadataRequest.first 3 y ∨ Cut.begun {} (fun t => t.UngroupedPartitionStates) (fun t x => { t with UngroupedPartitionStates := x }) (UpdateMetadataRequest.first 3) r y))
    |>.andThen (.onlyIf (.structs (get := fun (t : UpdateMetadataRequest) => t.TopicStates) ((UpdateMetadataTopicState6.partsK version).longer {}) (fun _ => rfl) (fun _ => rfl) (fun _ _ => rfl) (fun _ _ => rfl) (fun _ _ => rfl) (fun _ => rfl) (fun _ => rfl)) (fun _ => rfl) : Parts (KDec.onlyIf (version ≥ 5) (KDec.fieldStructs (UpdateMetadataTopicState6.decodeK version {}) {} (fun t x => { t with TopicStates := x }))) (UpdateMetadataRequest.first 4) (UpdateMetadataRequest.first 5) (fun r y => r = UpdateMetadataRequest.first 4 y ∨ Cut.begun {} (fun t => t.TopicStates) (fun t x => { t with TopicStates := x }) (UpdateMetadataRequest.first 4) r y))
    |>.andThen (.structs (get := fun (t : UpdateMetadataRequest) => t.LiveBrokers) ((UpdateMetadataBroker6.partsK version).longer {}) (fun _ => rfl) (fun _ => rfl) (fun _ _ => rfl) (fun _ _ => rfl) (fun _ _ => rfl) (fun _ => rfl) (fun _ => rfl) : Parts (KDec.fieldStructs (UpdateMetadataBroker6.decodeK version {}) {} (fun t x => { t with LiveBrokers := x })) (UpdateMetadataRequest.first 5) (UpdateMetadataRequest.first 6) (fun r y => r = UpdateMetadataRequest.first 5 y ∨ Cut.begun {} (fun t => t.LiveBrokers) (fun t x => { t with LiveBrokers := x }) (UpdateMetadataRequest.first 5) r y))
theorem UpdateMetadataRequest.filled (version : Int16) : FilledStep 28 94489280544 (UpdateMetadataRequest.decode version) :=
  ((FilledStep.field .int32)
    |>.andThen (FilledStep.field .int32)
    |>.andThen (FilledStep.onlyIf (FilledStep.field .int64))
    |>.andThen (FilledStep.onlyIf (FilledStep.structs (UpdateMetadataPartitionState6.filled version {})))
    |>.andThen (FilledStep.onlyIf (FilledStep.structs (UpdateMetadataTopicState6.filled version {})))
    |>.andThen (FilledStep.structs (UpdateMetadataBroker6.filled version {}))).mono (by decide) (by decide)
theorem UpdateMetadataRequest.part_of (r y : UpdateMetadataRequest) (h : ((((((r = UpdateMetadataRequest.first 0 y) ∨ (r = UpdateMetadataRequest.first 1 y)) ∨ (r = UpdateMetadataRequest.first 2 y)) ∨ (r = UpdateMetadataRequest.first 3 y ∨ Cut.begun {} (fun t => t.UngroupedPartitionStates) (fun t x => { t with UngroupedPartitionStates := x }) (UpdateMetadataRequest.first 3) r y)) ∨ (r = UpdateMetadataRequest.first 4 y ∨ Cut.begun {} (fun t => t.TopicStates) (fun t x => { t with TopicStates := x }) (UpdateMetadataRequest.first 4) r y)) ∨ (r = UpdateMetadataRequest.first 5 y ∨ Cut.begun {} (fun t => t.LiveBrokers) (fun t x => { t with LiveBrokers := x }) (UpdateMetadataRequest.first 5) r y))) : UpdateMetadataRequest.Part r y :=
  match h with
    | (.inl (.inl (.inl (.inl (.inl h))))) => .inl ⟨0, by decide, h⟩
    | (.inl (.inl (.inl (.inl (.inr h))))) => .inl ⟨1, by decide, h⟩
    | (.inl (.inl (.inl (.inr h)))) => .inl ⟨2, by decide, h⟩
    | (.inl (.inl (.inr (.inl h)))) => .inl ⟨3, by decide, h⟩
    | (.inl (.inl (.inr (.inr h)))) => (.inr (.inl h))
    | (.inl (.inr (.inl h))) => .inl ⟨4, by decide, h⟩
    | (.inl (.inr (.inr h))) => (.inr (.inr (.inl h)))
    | (.inr (.inl h)) => .inl ⟨5, by decide, h⟩
    | (.inr (.inr h)) => (.inr (.inr (.inr h)))
theorem UpdateMetadataRequest.keeps_holds : UpdateMetadataRequest.keeps.Holds UpdateMetadataRequest.layout :=
  KeptMsg.holds UpdateMetadataRequest.lawful UpdateMetadataRequest.sameK (stop := fun v t => UpdateMetadataRequest.ends v t 5) (c := fun v t => UpdateMetadataRequest.cutAt v t 0) (fun _ _ _ => rfl) UpdateMetadataRequest.cutsK (c0 := UpdateMetadataRequest.first 0) rfl UpdateMetadataRequest.partsK UpdateMetadataRequest.part_of UpdateMetadataRequest.filled (by decide) (by decide)

/-- message/messages.gen.go:3154-3161 `UpdateMetadataResponse.Decode`, with the receiver kept -/
def UpdateMetadataResponse.decodeK (_version : Int16) : KDec UpdateMetadataResponse :=
    KDec.field Dec.int16 0 (fun t x => { t with ErrorCode := x })

/-- Where the fields of `UpdateMetadataResponse` end. -/
def UpdateMetadataResponse.ends (_version : Int16) (t : UpdateMetadataResponse) : Nat → Nat :=
  Cut.ends 0 [Wire.int16 t.ErrorCode]

/-- What is left of `t` if only its first `n` bytes are there. -/
def UpdateMetadataResponse.cut (version : Int16) (n : Nat) (t : UpdateMetadataResponse) : UpdateMetadataResponse :=
  { ErrorCode := Cut.field n (t.ends version 0) t.ErrorCode 0 }

/-- The same after the first `k` statements of `Decode`. -/
def UpdateMetadataResponse.cutAt (version : Int16) (t : UpdateMetadataResponse) (k n : Nat) : UpdateMetadataResponse :=
  { ErrorCode := upto k 0 (Cut.field n (t.ends version 0) t.ErrorCode 0) 0 }

/-- The first `k` fields of `y`, and zeros. -/
def UpdateMetadataResponse.first (k : Nat) (y : UpdateMetadataResponse) : UpdateMetadataResponse :=
  { ErrorCode := upto k 0 y.ErrorCode 0 }

/-- `r` is a beginning of `y`, and zeros. -/
def UpdateMetadataResponse.Part (r y : UpdateMetadataResponse) : Prop :=
  (∃ k, k < 1 ∧ r = y.first k)

/-- `UpdateMetadataResponse` with its receiver kept. -/
def UpdateMetadataResponse.keeps : KeptMsg UpdateMetadataResponse.type := { decode := UpdateMetadataResponse.decodeK, cut := UpdateMetadataResponse.cut, Part := UpdateMetadataResponse.Part }

theorem UpdateMetadataResponse.sameK (version : Int16) : KStep (UpdateMetadataResponse.decodeK version) (UpdateMetadataResponse.decode version) :=
  KStep.field
theorem UpdateMetadataResponse.cutsK (version : Int16) (t : UpdateMetadataResponse) (h : t.Fits version) :
    Cuts (UpdateMetadataResponse.decodeK version) 0 (UpdateMetadataResponse.wire version t) (UpdateMetadataResponse.ends version t 0) (UpdateMetadataResponse.cutAt version t 0) (UpdateMetadataResponse.cutAt version t 1) :=
  (.field (reads_int16 t.ErrorCode) (fun _ => rfl) (fun _ => rfl) : Cuts _ 0 _ (UpdateMetadataResponse.ends version t 0) (UpdateMetadataResponse.cutAt version t 0) (UpdateMetadataResponse.cutAt version t 1))
theorem UpdateMetadataResponse.partsK (version : Int16) : Parts (UpdateMetadataResponse.decodeK version) (UpdateMetadataResponse.first 0) (UpdateMetadataResponse.first 1) (fun r y => (r = UpdateMetadataResponse.first 0 y)) :=
  (.field Longer.int16 (fun _ => rfl) (fun _ _ => rfl) (fun _ _ => rfl) (fun _ => rfl) : Parts (KDec.field Dec.int16 0 (fun t x => { t with ErrorCode := x })) (UpdateMetadataResponse.first 0) (UpdateMetadataResponse.first 1) (fun r y => r = UpdateMetadataResponse.first 0 y))
theorem UpdateMetadataResponse.filled (version : Int16) : FilledStep 2 2 (UpdateMetadataResponse.decode version) :=
  (FilledStep.field .int16).mono (by decide) (by decide)
theorem UpdateMetadataResponse.part_of (r y : UpdateMetadataResponse) (h : (r = UpdateMetadataResponse.first 0 y)) : UpdateMetadataResponse.Part r y :=
  match h with
    | h => ⟨0, by decide, h⟩
theorem UpdateMetadataResponse.keeps_holds : UpdateMetadataResponse.keeps.Holds UpdateMetadataResponse.layout :=
  KeptMsg.holds UpdateMetadataResponse.lawful UpdateMetadataResponse.sameK (stop := fun v t => UpdateMetadataResponse.ends v t 0) (c := fun v t => UpdateMetadataResponse.cutAt v t 0) (fun _ _ _ => rfl) UpdateMetadataResponse.cutsK (c0 := UpdateMetadataResponse.first 0) rfl UpdateMetadataResponse.partsK UpdateMetadataResponse.part_of UpdateMetadataResponse.filled (by decide) (by decide)

/-- The structures of the UpdateMetadata messages. -/
def keptUpdateMetadata : List (Σ (M : MsgType) (_ : Layout M), KeptMsg M) :=
  [⟨UpdateMetadataRequest.type, UpdateMetadataRequest.layout, UpdateMetadataRequest.keeps⟩,
   ⟨UpdateMetadataTopicState6.type, UpdateMetadataTopicState6.layout, UpdateMetadataTopicState6.keeps⟩,
   ⟨UpdateMetadataBroker6.type, UpdateMetadataBroker6.layout, UpdateMetadataBroker6.keeps⟩,
   ⟨UpdateMetadataEndpoint6.type, UpdateMetadataEndpoint6.layout, UpdateMetadataEndpoint6.keeps⟩,
   ⟨UpdateMetadataPartitionState6.type, UpdateMetadataPartitionState6.layout, UpdateMetadataPartitionState6.keeps⟩,
   ⟨UpdateMetadataResponse.type, UpdateMetadataResponse.layout, UpdateMetadataResponse.keeps⟩]
theorem keptUpdateMetadata_holds : ∀ p ∈ keptUpdateMetadata, p.2.2.Holds p.2.1 := by
  unfold keptUpdateMetadata
  simp only [List.forall_mem_cons]
  exact ⟨UpdateMetadataRequest.keeps_holds, UpdateMetadataTopicState6.keeps_holds, UpdateMetadataBroker6.keeps_holds, UpdateMetadataEndpoint6.keeps_holds, UpdateMetadataPartitionState6.keeps_holds, UpdateMetadataResponse.keeps_holds, fun _ h => absurd h (by simp)⟩

end Kafka.Msg
