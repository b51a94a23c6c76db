import Verif.Message.KeptLemmas
import Verif.Gen.Proof.LeaderAndIsr
/-!
Generated by tools/gen_messages.py: what is in the LeaderAndIsr messages after an error.
-/
set_option linter.unusedVariables false
namespace Kafka.Msg

/-- message/messages.gen.go:2240-2295 `LeaderAndIsrPartitionState4.Decode`, with the receiver kept -/
def LeaderAndIsrPartitionState4.decodeK (version : Int16) : KDec LeaderAndIsrPartitionState4 :=
    KDec.onlyIf (version ≥ 0 ∧ version ≤ 1) (KDec.field Dec.string [] (fun t x => { t with TopicName := x })) ;|>
    KDec.field Dec.int32 0 (fun t x => { t with PartitionIndex := x }) ;|>
    KDec.field Dec.int32 0 (fun t x => { t with ControllerEpoch := x }) ;|>
    KDec.field Dec.int32 0 (fun t x => { t with Leader := x }) ;|>
    KDec.field Dec.int32 0 (fun t x => { t with LeaderEpoch := x }) ;|>
    KDec.field Dec.int32Array none (fun t x => { t with Isr := x }) ;|>
    KDec.field Dec.int32 0 (fun t x => { t with ZkVersion := x }) ;|>
    KDec.field Dec.int32Array none (fun t x => { t with Replicas := x }) ;|>
    KDec.onlyIf (version ≥ 3) (KDec.field Dec.int32Array none (fun t x => { t with AddingReplicas := x })) ;|>
    KDec.onlyIf (version ≥ 3) (KDec.field Dec.int32Array none (fun t x => { t with RemovingReplicas := x })) ;|>
    KDec.onlyIf (version ≥ 1) (KDec.field Dec.bool false (fun t x => { t with IsNew := x }))

/-- Where the fields of `LeaderAndIsrPartitionState4` end. -/
def LeaderAndIsrPartitionState4.ends (version : Int16) (t : LeaderAndIsrPartitionState4) : Nat → Nat :=
  Cut.ends 0 [Wire.when (version ≥ 0 ∧ version ≤ 1) (Wire.string t.TopicName),
    Wire.int32 t.PartitionIndex,
    Wire.int32 t.ControllerEpoch,
    Wire.int32 t.Leader,
    Wire.int32 t.LeaderEpoch,
    Wire.int32Array t.Isr,
    Wire.int32 t.ZkVersion,
    Wire.int32Array t.Replicas,
    Wire.when (version ≥ 3) (Wire.int32Array t.AddingReplicas),
    Wire.when (version ≥ 3) (Wire.int32Array t.RemovingReplicas),
    Wire.when (version ≥ 1) (Wire.bool t.IsNew)]

/-- What is left of `t` if only its first `n` bytes are there. -/
def LeaderAndIsrPartitionState4.cut (version : Int16) (n : Nat) (t : LeaderAndIsrPartitionState4) : LeaderAndIsrPartitionState4 :=
  { TopicName := Cut.gate (version ≥ 0 ∧ version ≤ 1) (Cut.field n (t.ends version 0) t.TopicName []) [],
    PartitionIndex := Cut.field n (t.ends version 1) t.PartitionIndex 0,
    ControllerEpoch := Cut.field n (t.ends version 2) t.ControllerEpoch 0,
    Leader := Cut.field n (t.ends version 3) t.Leader 0,
    LeaderEpoch := Cut.field n (t.ends version 4) t.LeaderEpoch 0,
    Isr := Cut.field n (t.ends version 5) t.Isr none,
    ZkVersion := Cut.field n (t.ends version 6) t.ZkVersion 0,
    Replicas := Cut.field n (t.ends version 7) t.Replicas none,
    AddingReplicas := Cut.gate (version ≥ 3) (Cut.field n (t.ends version 8) t.AddingReplicas none) none,
    RemovingReplicas := Cut.gate (version ≥ 3) (Cut.field n (t.ends version 9) t.RemovingReplicas none) none,
    IsNew := Cut.gate (version ≥ 1) (Cut.field n (t.ends version 10) t.IsNew false) false }

/-- The same after the first `k` statements of `Decode`. -/
def LeaderAndIsrPartitionState4.cutAt (version : Int16) (t : LeaderAndIsrPartitionState4) (k n : Nat) : LeaderAndIsrPartitionState4 :=
  { TopicName := upto k 0 (Cut.gate (version ≥ 0 ∧ version ≤ 1) (Cut.field n (t.ends version 0) t.TopicName []) []) [],
    PartitionIndex := upto k 1 (Cut.field n (t.ends version 1) t.PartitionIndex 0) 0,
    ControllerEpoch := upto k 2 (Cut.field n (t.ends version 2) t.ControllerEpoch 0) 0,
    Leader := upto k 3 (Cut.field n (t.ends version 3) t.Leader 0) 0,
    LeaderEpoch := upto k 4 (Cut.field n (t.ends version 4) t.LeaderEpoch 0) 0,
    Isr := upto k 5 (Cut.field n (t.ends version 5) t.Isr none) none,
    ZkVersion := upto k 6 (Cut.field n (t.ends version 6) t.ZkVersion 0) 0,
    Replicas := upto k 7 (Cut.field n (t.ends version 7) t.Replicas none) none,
    AddingReplicas := upto k 8 (Cut.gate (version ≥ 3) (Cut.field n (t.ends version 8) t.AddingReplicas none) none) none,
    RemovingReplicas := upto k 9 (Cut.gate (version ≥ 3) (Cut.field n (t.ends version 9) t.RemovingReplicas none) none) none,
    IsNew := upto k 10 (Cut.gate (version ≥ 1) (Cut.field n (t.ends version 10) t.IsNew false) false) false }

/-- The first `k` fields of `y`, and zeros. -/
def LeaderAndIsrPartitionState4.first (k : Nat) (y : LeaderAndIsrPartitionState4) : LeaderAndIsrPartitionState4 :=
  { TopicName := upto k 0 y.TopicName [],
    PartitionIndex := upto k 1 y.PartitionIndex 0,
    ControllerEpoch := upto k 2 y.ControllerEpoch 0,
    Leader := upto k 3 y.Leader 0,
    LeaderEpoch := upto k 4 y.LeaderEpoch 0,
    Isr := upto k 5 y.Isr none,
    ZkVersion := upto k 6 y.ZkVersion 0,
    Replicas := upto k 7 y.Replicas none,
    AddingReplicas := upto k 8 y.AddingReplicas none,
    RemovingReplicas := upto k 9 y.RemovingReplicas none,
    IsNew := upto k 10 y.IsNew false }

/-- `r` is a beginning of `y`, and zeros. -/
def LeaderAndIsrPartitionState4.Part (r y : LeaderAndIsrPartitionState4) : Prop :=
  (∃ k, k < 11 ∧ r = y.first k)

/-- `LeaderAndIsrPartitionState4` with its receiver kept. -/
def LeaderAndIsrPartitionState4.keeps : KeptMsg LeaderAndIsrPartitionState4.type := { decode := LeaderAndIsrPartitionState4.decodeK, cut := LeaderAndIsrPartitionState4.cut, Part := LeaderAndIsrPartitionState4.Part }

theorem LeaderAndIsrPartitionState4.sameK (version : Int16) : KStep (LeaderAndIsrPartitionState4.decodeK version) (LeaderAndIsrPartitionState4.decode version) :=
  (KStep.onlyIf (KStep.field))
    |>.andThen (KStep.field)
    |>.andThen (KStep.field)
    |>.andThen (KStep.field)
    |>.andThen (KStep.field)
    |>.andThen (KStep.field)
    |>.andThen (KStep.field)
    |>.andThen (KStep.field)
    |>.andThen (KStep.onlyIf (KStep.field))
    |>.andThen (KStep.onlyIf (KStep.field))
    |>.andThen (KStep.onlyIf (KStep.field))
theorem LeaderAndIsrPartitionState4.cutsK (version : Int16) (t : LeaderAndIsrPartitionState4) (h : t.Fits version) :
    Cuts (LeaderAndIsrPartitionState4.decodeK version) 0 (LeaderAndIsrPartitionState4.wire version t) (LeaderAndIsrPartitionState4.ends version t 10) (LeaderAndIsrPartitionState4.cutAt version t 0) (LeaderAndIsrPartitionState4.cutAt version t 11) :=
  (.optField (fun hc => reads_string (h.TopicName hc)) (fun _ => rfl) (fun _ => rfl) : Cuts _ 0 _ (LeaderAndIsrPartitionState4.ends version t 0) (LeaderAndIsrPartitionState4.cutAt version t 0) (LeaderAndIsrPartitionState4.cutAt version t 1))
    |>.andThen (.field (reads_int32 t.PartitionIndex) (fun _ => rfl) (fun _ => rfl) : Cuts _ (LeaderAndIsrPartitionState4.ends version t 0) _ (LeaderAndIsrPartitionState4.ends version t 1) (LeaderAndIsrPartitionState4.cutAt version t 1) (LeaderAndIsrPartitionState4.cutAt version t 2))
    |>.andThen (.field (reads_int32 t.ControllerEpoch) (fun _ => rfl) (fun _ => rfl) : Cuts _ (LeaderAndIsrPartitionState4.ends version t 1) _ (LeaderAndIsrPartitionState4.ends version t 2) (LeaderAndIsrPartitionState4.cutAt version t 2) (LeaderAndIsrPartitionState4.cutAt version t 3))
    |>.andThen (.field (reads_int32 t.Leader) (fun _ => rfl) (fun _ => rfl) : Cuts _ (LeaderAndIsrPartitionState4.ends version t 2) _ (LeaderAndIsrPartitionState4.ends version t 3) (LeaderAndIsrPartitionState4.cutAt version t 3) (LeaderAndIsrPartitionState4.cutAt version t 4))
    |>.andThen (.field (reads_int32 t.LeaderEpoch) (fun _ => rfl) (fun _ => rfl) : Cuts _ (LeaderAndIsrPartitionState4.ends version t 3) _ (LeaderAndIsrPartitionState4.ends version t 4) (LeaderAndIsrPartitionState4.cutAt version t 4) (LeaderAndIsrPartitionState4.cutAt version t 5))
    |>.andThen (.field (reads_int32Array h.Isr) (fun _ => rfl) (fun _ => rfl) : Cuts _ (LeaderAndIsrPartitionState4.ends version t 4) _ (LeaderAndIsrPartitionState4.ends version t 5) (LeaderAndIsrPartitionState4.cutAt version t 5) (LeaderAndIsrPartitionState4.cutAt version t 6))
    |>.andThen (.field (reads_int32 t.ZkVersion) (fun _ => rfl) (fun _ => rfl) : Cuts _ (LeaderAndIsrPartitionState4.ends version t 5) _ (LeaderAndIsrPartitionState4.ends version t 6) (LeaderAndIsrPartitionState4.cutAt version t 6) (LeaderAndIsrPartitionState4.cutAt version t 7))
    |>.andThen (.field (reads_int32Array h.Replicas) (fun _ => rfl) (fun _ => rfl) : Cuts _ (LeaderAndIsrPartitionState4.ends version t 6) _ (LeaderAndIsrPartitionState4.ends version t 7) (LeaderAndIsrPartitionState4.cutAt version t 7) (LeaderAndIsrPartitionState4.cutAt version t 8))
    |>.andThen (.optField (fun hc => reads_int32Array (h.AddingReplicas hc)) (fun _ => rfl) (fun _ => rfl) : Cuts _ (LeaderAndIsrPartitionState4.ends version t 7) _ (LeaderAndIsrPartitionState4.ends version t 8) (LeaderAndIsrPartitionState4.cutAt version t 8) (LeaderAndIsrPartitionState4.cutAt version t 9))
    |>.andThen (.optField (fun hc => reads_int32Array (h.RemovingReplicas hc)) (fun _ => rfl) (fun _ => rfl) : Cuts _ (LeaderAndIsrPartitionState4.ends version t 8) _ (LeaderAndIsrPartitionState4.ends version t 9) (LeaderAndIsrPartitionState4.cutAt version t 9) (LeaderAndIsrPartitionState4.cutAt version t 10))
    |>.andThen (.optField (fun _ => reads_bool t.IsNew) (fun _ => rfl) (fun _ => rfl) : Cuts _ (LeaderAndIsrPartitionState4.ends version t 9) _ (LeaderAndIsrPartitionState4.ends version t 10) (LeaderAndIsrPartitionState4.cutAt version t 10) (LeaderAndIsrPartitionState4.cutAt version t 11))
theorem LeaderAndIsrPartitionState4.partsK (version : Int16) : Parts (LeaderAndIsrPartitionState4.decodeK version) (LeaderAndIsrPartitionState4.first 0) (LeaderAndIsrPartitionState4.first 11) (fun r y => (((((((((((r = LeaderAndIsrPartitionState4.first 0 y) ∨ (r = LeaderAndIsrPartitionState4.first 1 y)) ∨ (r = LeaderAndIsrPartitionState4.first 2 y)) ∨ (r = LeaderAndIsrPartitionState4.first 3 y)) ∨ (r = LeaderAndIsrPartitionState4.first 4 y)) ∨ (r = LeaderAndIsrPartitionState4.first 5 y)) ∨ (r = LeaderAndIsrPartitionState4.first 6 y)) ∨ (r = LeaderAndIsrPartitionState4.first 7 y)) ∨ (r = LeaderAndIsrPartitionState4.first 8 y)) ∨ (r = LeaderAndIsrPartitionState4.first 9 y)) ∨ (r = LeaderAndIsrPartitionState4.first 10 y))) :=
  (.onlyIf (.field Longer.string (fun _ => rfl) (fun _ _ => rfl) (fun _ _ => rfl) (fun _ => rfl)) (fun _ => rfl) : Parts (KDec.onlyIf (version ≥ 0 ∧ version ≤ 1) (KDec.field Dec.string [] (fun t x => { t with TopicName := x }))) (LeaderAndIsrPartitionState4.first 0) (LeaderAndIsrPartitionState4.first 1) (fun r y => r = LeaderAndIsrPartitionState4.first 0 y))
    |>.andThen (.field Longer.int32 (fun _ => rfl) (fun _ _ => rfl) (fun _ _ => rfl) (fun _ => rfl) : Parts (KDec.field Dec.int32 0 (fun t x => { t with PartitionIndex := x })) (LeaderAndIsrPartitionState4.first 1) (LeaderAndIsrPartitionState4.first 2) (fun r y => r = LeaderAndIsrPartitionState4.first 1 y))
    |>.andThen (.field Longer.int32 (fun _ => rfl) (fun _ _ => rfl) (fun _ _ => rfl) (fun _ => rfl) : Parts (KDec.field Dec.int32 0 (fun t x => { t with ControllerEpoch := x })) (LeaderAndIsrPartitionState4.first 2) (LeaderAndIsrPartitionState4.first 3) (fun r y => r = LeaderAndIsrPartitionState4.first 2 y))
    |>.andThen (.field Longer.int32 (fun _ => rfl) (fun _ _ => rfl) (fun _ _ => rfl) (fun _ => rfl) : Parts (KDec.field Dec.int32 0 (fun t x => { t with Leader := x })) (LeaderAndIsrPartitionState4.first 3) (LeaderAndIsrPartitionState4.first 4) (fun r y => r = LeaderAndIsrPartitionState4.first 3 y))
    |>.andThen (.field Longer.int32 (fun _ => rfl) (fun _ _ => rfl) (fun _ _ => rfl) (fun _ => rfl) : Parts (KDec.field Dec.int32 0 (fun t x => { t with LeaderEpoch := x })) (LeaderAndIsrPartitionState4.first 4) (LeaderAndIsrPartitionState4.first 5) (fun r y => r = LeaderAndIsrPartitionState4.first 4 y))
    |>.andThen (.field Longer.int32Array (fun _ => rfl) (fun _ _ => rfl) (fun _ _ => rfl) (fun _ => rfl) : Parts (KDec.field Dec.int32Array none (fun t x => { t with Isr := x })) (LeaderAndIsrPartitionState4.first 5) (LeaderAndIsrPartitionState4.first 6) (fun r y => r = LeaderAndIsrPartitionState4.first 5 y))
    |>.andThen (.field Longer.int32 (fun _ => rfl) (fun _ _ => rfl) (fun _ _ => rfl) (fun _ => rfl) : Parts (KDec.field Dec.int32 0 (fun t x => { t with ZkVersion := x })) (LeaderAndIsrPartitionState4.first 6) (LeaderAndIsrPartitionState4.first 7) (fun r y => r = LeaderAndIsrPartitionState4.first 6 y))
    |>.andThen (.field Longer.int32Array (fun _ => rfl) (fun _ _ => rfl) (fun _ _ => rfl) (fun _ => rfl) : Parts (KDec.field Dec.int32Array none (fun t x => { t with Replicas := x })) (LeaderAndIsrPartitionState4.first 7) (LeaderAndIsrPartitionState4.first 8) (fun r y => r = LeaderAndIsrPartitionState4.first 7 y))
    |>.andThen (.onlyIf (.field Longer.int32Array (fun _ => rfl) (fun _ _ => rfl) (fun _ _ => rfl) (fun _ => rfl)) (fun _ => rfl) : Parts (KDec.onlyIf (version ≥ 3) (KDec.field Dec.int32Array none (fun t x => { t with AddingReplicas := x }))) (LeaderAndIsrPartitionState4.first 8) (LeaderAndIsrPartitionState4.first 9) (fun r y => r = LeaderAndIsrPartitionState4.first 8 y))
    |>.andThen (.onlyIf (.field Longer.int32Array (fun _ => rfl) (fun _ _ => rfl) (fun _ _ => rfl) (fun _ => rfl)) (fun _ => rfl) : Parts (KDec.onlyIf (version ≥ 3) (KDec.field Dec.int32Array none (fun t x => { t with RemovingReplicas := x }))) (LeaderAndIsrPartitionState4.first 9) (LeaderAndIsrPartitionState4.first 10) (fun r y => r = LeaderAndIsrPartitionState4.first 9 y))
    |>.andThen (.onlyIf (.field Longer.bool (fun _ => rfl) (fun _ _ => rfl) (fun _ _ => rfl) (fun _ => rfl)) (fun _ => rfl) : Parts (KDec.onlyIf (version ≥ 1) (KDec.field Dec.bool false (fun t x => { t with IsNew := x }))) (LeaderAndIsrPartitionState4.first 10) (LeaderAndIsrPartitionState4.first 11) (fun r y => r = LeaderAndIsrPartitionState4.first 10 y))
theorem LeaderAndIsrPartitionState4.filled (version : Int16) : FilledStep 39 8589934617 (LeaderAndIsrPartitionState4.decode version) :=
  ((FilledStep.onlyIf (FilledStep.field .string))
    |>.andThen (FilledStep.field .int32)
    |>.andThen (FilledStep.field .int32)
    |>.andThen (FilledStep.field .int32)
    |>.andThen (FilledStep.field .int32)
    |>.andThen (FilledStep.field .int32Array)
    |>.andThen (FilledStep.field .int32)
    |>.andThen (FilledStep.field .int32Array)
    |>.andThen (FilledStep.onlyIf (FilledStep.field .int32Array))
    |>.andThen (FilledStep.onlyIf (FilledStep.field .int32Array))
    |>.andThen (FilledStep.onlyIf (FilledStep.field .bool))).mono (by decide) (by decide)
theorem LeaderAndIsrPartitionState4.part_of (r y : LeaderAndIsrPartitionState4) (h : (((((((((((r = LeaderAndIsrPartitionState4.first 0 y) ∨ (r = LeaderAndIsrPartitionState4.first 1 y)) ∨ (r = LeaderAndIsrPartitionState4.first 2 y)) ∨ (r = LeaderAndIsrPartitionState4.first 3 y)) ∨ (r = LeaderAndIsrPartitionState4.first 4 y)) ∨ (r = LeaderAndIsrPartitionState4.first 5 y)) ∨ (r = LeaderAndIsrPartitionState4.first 6 y)) ∨ (r = LeaderAndIsrPartitionState4.first 7 y)) ∨ (r = LeaderAndIsrPartitionState4.first 8 y)) ∨ (r = LeaderAndIsrPartitionState4.first 9 y)) ∨ (r = LeaderAndIsrPartitionState4.first 10 y))) : LeaderAndIsrPartitionState4.Part r y :=
  match h with
    | (.inl (.inl (.inl (.inl (.inl (.inl (.inl (.inl (.inl (.inl h)))))))))) => ⟨0, by decide, h⟩
    | (.inl (.inl (.inl (.inl (.inl (.inl (.inl (.inl (.inl (.inr h)))))))))) => ⟨1, by decide, h⟩
    | (.inl (.inl (.inl (.inl (.inl (.inl (.inl (.inl (.inr h))))))))) => ⟨2, by decide, h⟩
    | (.inl (.inl (.inl (.inl (.inl (.inl (.inl (.inr h)))))))) => ⟨3, by decide, h⟩
    | (.inl (.inl (.inl (.inl (.inl (.inl (.inr h))))))) => ⟨4, by decide, h⟩
    | (.inl (.inl (.inl (.inl (.inl (.inr h)))))) => ⟨5, by decide, h⟩
    | (.inl (.inl (.inl (.inl (.inr h))))) => ⟨6, by decide, h⟩
    | (.inl (.inl (.inl (.inr h)))) => ⟨7, by decide, h⟩
    | (.inl (.inl (.inr h))) => ⟨8, by decide, h⟩
    | (.inl (.inr h)) => ⟨9, by decide, h⟩
    | (.inr h) => ⟨10, by decide, h⟩
theorem LeaderAndIsrPartitionState4.keeps_holds : LeaderAndIsrPartitionState4.keeps.Holds LeaderAndIsrPartitionState4.layout :=
  KeptMsg.holds LeaderAndIsrPartitionState4.lawful LeaderAndIsrPartitionState4.sameK (stop := fun v t => LeaderAndIsrPartitionState4.ends v t 10) (c := fun v t => LeaderAndIsrPartitionState4.cutAt v t 0) (fun _ _ _ => rfl) LeaderAndIsrPartitionState4.cutsK (c0 := LeaderAndIsrPartitionState4.first 0) rfl LeaderAndIsrPartitionState4.partsK LeaderAndIsrPartitionState4.part_of LeaderAndIsrPartitionState4.filled (by decide) (by decide)

/-- message/messages.gen.go:2111-2135 `LeaderAndIsrTopicState4.Decode`, with the receiver kept -/
def LeaderAndIsrTopicState4.decodeK (version : Int16) : KDec LeaderAndIsrTopicState4 :=
    KDec.onlyIf (version ≥ 2) (KDec.field Dec.string [] (fun t x => { t with TopicName := x })) ;|>
    KDec.onlyIf (version ≥ 2) (KDec.fieldStructs (LeaderAndIsrPartitionState4.decodeK version {}) {} (fun t x => { t with PartitionStates := x }))

/-- Where the fields of `LeaderAndIsrTopicState4` end. -/
def LeaderAndIsrTopicState4.ends (version : Int16) (t : LeaderAndIsrTopicState4) : Nat → Nat :=
  Cut.ends 0 [Wire.when (version ≥ 2) (Wire.string t.TopicName),
    Wire.when (version ≥ 2) (Wire.array (LeaderAndIsrPartitionState4.wire version) t.PartitionStates)]

/-- What is left of `t` if only its first `n` bytes are there. -/
def LeaderAndIsrTopicState4.cut (version : Int16) (n : Nat) (t : LeaderAndIsrTopicState4) : LeaderAndIsrTopicState4 :=
  { TopicName := Cut.gate (version ≥ 2) (Cut.field n (t.ends version 0) t.TopicName []) [],
    PartitionStates := Cut.gate (version ≥ 2) (Cut.array n (t.ends version 0) (LeaderAndIsrPartitionState4.wire version) (fun x => x.seen version {}) {} t.PartitionStates) none }

/-- The same after the first `k` statements of `Decode`. -/
def LeaderAndIsrTopicState4.cutAt (version : Int16) (t : LeaderAndIsrTopicState4) (k n : Nat) : LeaderAndIsrTopicState4 :=
  { TopicName := upto k 0 (Cut.gate (version ≥ 2) (Cut.field n (t.ends version 0) t.TopicName []) []) [],
    PartitionStates := upto k 1 (Cut.gate (version ≥ 2) (Cut.array n (t.ends version 0) (LeaderAndIsrPartitionState4.wire version) (fun x => x.seen version {}) {} t.PartitionStates) none) none }

/-- The first `k` fields of `y`, and zeros. -/
def LeaderAndIsrTopicState4.first (k : Nat) (y : LeaderAndIsrTopicState4) : LeaderAndIsrTopicState4 :=
  { TopicName := upto k 0 y.TopicName [],
    PartitionStates := upto k 1 y.PartitionStates none }

/-- `r` is a beginning of `y`, and zeros. -/
def LeaderAndIsrTopicState4.Part (r y : LeaderAndIsrTopicState4) : Prop :=
  (∃ k, k < 2 ∧ r = y.first k) ∨
    Cut.begun {} (fun t => t.PartitionStates) (fun t x => { t with PartitionStates := x }) (LeaderAndIsrTopicState4.first 1) r y

/-- `LeaderAndIsrTopicState4` with its receiver kept. -/
def LeaderAndIsrTopicState4.keeps : KeptMsg LeaderAndIsrTopicState4.type := { decode := LeaderAndIsrTopicState4.decodeK, cut := LeaderAndIsrTopicState4.cut, Part := LeaderAndIsrTopicState4.Part }

theorem LeaderAndIsrTopicState4.sameK (version : Int16) : KStep (LeaderAndIsrTopicState4.decodeK version) (LeaderAndIsrTopicState4.decode version) :=
  (KStep.onlyIf (KStep.field))
    |>.andThen (KStep.onlyIf (KStep.structs (fun _ => rfl) (LeaderAndIsrPartitionState4.sameK version {})))
theorem LeaderAndIsrTopicState4.cutsK (version : Int16) (t : LeaderAndIsrTopicState4) (h : t.Fits version) :
    Cuts (LeaderAndIsrTopicState4.decodeK version) 0 (LeaderAndIsrTopicState4.wire version t) (LeaderAndIsrTopicState4.ends version t 1) (LeaderAndIsrTopicState4.cutAt version t 0) (LeaderAndIsrTopicState4.cutAt version t 2) :=
  (.optField (fun hc => reads_string (h.TopicName hc)) (fun _ => rfl) (fun _ => rfl) : Cuts _ 0 _ (LeaderAndIsrTopicState4.ends version t 0) (LeaderAndIsrTopicState4.cutAt version t 0) (LeaderAndIsrTopicState4.cutAt version t 1))
    |>.andThen (.optStructs (LeaderAndIsrPartitionState4.sameK version {}) (fun x hx => LeaderAndIsrPartitionState4.reads version x hx {}) h.PartitionStates (fun _ => rfl) (fun _ => rfl) : Cuts _ (LeaderAndIsrTopicState4.ends version t 0) _ (LeaderAndIsrTopicState4.ends version t 1) (LeaderAndIsrTopicState4.cutAt version t 1) (LeaderAndIsrTopicState4.cutAt version t 2))
theorem LeaderAndIsrTopicState4.partsK (version : Int16) : Parts (LeaderAndIsrTopicState4.decodeK version) (LeaderAndIsrTopicState4.first 0) (LeaderAndIsrTopicState4.first 2) (fun r y => ((r = LeaderAndIsrTopicState4.first 0 y) ∨ (r = LeaderAndIsrTopicState4.first 1 y ∨ Cut.begun {} (fun t => t.PartitionStates) (fun t x => { t with PartitionStates := x }) (LeaderAndIsrTopicState4.first 1) r y))) :=
  (.onlyIf (.field Longer.string (fun _ => rfl) (fun _ _ => rfl) (fun _ _ => rfl) (fun _ => rfl)) (fun _ => rfl) : Parts (KDec.onlyIf (version ≥ 2) (KDec.field Dec.string [] (fun t x => { t with TopicName := x }))) (LeaderAndIsrTopicState4.first 0) (LeaderAndIsrTopicState4.first 1) (fun r y => r = LeaderAndIsrTopicState4.first 0 y))
    |>.andThen (.onlyIf (.structs (get := fun (t : LeaderAndIsrTopicState4) => t.PartitionStates) ((LeaderAndIsrPartitionState4.partsK version).longer {}) (fun _ => rfl) (fun _ => rfl) (fun _ _ => rfl) (fun _ _ => rfl) (fun _ _ => rfl) (fun _ => rfl) (fun _ => rfl)) (fun _ => rfl) : Parts (KDec.onlyIf (version ≥ 2) (KDec.fieldStructs (LeaderAndIsrPartitionState4.decodeK version {}) {} (fun t x => { t with PartitionStates := x }))) (LeaderAndIsrTopicState4.first 1) (LeaderAndIsrTopicState4.first 2) (fun r y => r = LeaderAndIsrTopicState4.first 1 y ∨ Cut.begun {} (fun t => t.PartitionStates) (fun t x => { t with PartitionStates := x }) (LeaderAndIsrTopicState4.first 1) r y))
theorem LeaderAndIsrTopicState4.filled (version : Int16) : FilledStep 6 92341796893 (LeaderAndIsrTopicState4.decode version) :=
  ((FilledStep.onlyIf (FilledStep.field .string))
    |>.andThen (FilledStep.onlyIf (FilledStep.structs (LeaderAndIsrPartitionState4.filled version {})))).mono (by decide) (by decide)
theorem LeaderAndIsrTopicState4.part_of (r y : LeaderAndIsrTopicState4) (h : ((r = LeaderAndIsrTopicState4.first 0 y) ∨ (r = LeaderAndIsrTopicState4.first 1 y ∨ Cut.begun {} (fun t => t.PartitionStates) (fun t x => { t with PartitionStates := x }) (LeaderAndIsrTopicState4.first 1) r y))) : LeaderAndIsrTopicState4.Part r y :=
  match h with
    | (.inl h) => .inl ⟨0, by decide, h⟩
    | (.inr (.inl h)) => .inl ⟨1, by decide, h⟩
    | (.inr (.inr h)) => (.inr h)
theorem LeaderAndIsrTopicState4.keeps_holds : LeaderAndIsrTopicState4.keeps.Holds LeaderAndIsrTopicState4.layout :=
  KeptMsg.holds LeaderAndIsrTopicState4.lawful LeaderAndIsrTopicState4.sameK (stop := fun v t => LeaderAndIsrTopicState4.ends v t 1) (c := fun v t => LeaderAndIsrTopicState4.cutAt v t 0) (fun _ _ _ => rfl) LeaderAndIsrTopicState4.cutsK (c0 := LeaderAndIsrTopicState4.first 0) rfl LeaderAndIsrTopicState4.partsK LeaderAndIsrTopicState4.part_of LeaderAndIsrTopicState4.filled (by decide) (by decide)

/-- message/messages.gen.go:2160-2175 `LeaderAndIsrLiveLeader4.Decode`, with the receiver kept -/
def LeaderAndIsrLiveLeader4.decodeK (_version : Int16) : KDec LeaderAndIsrLiveLeader4 :=
    KDec.field Dec.int32 0 (fun t x => { t with BrokerId := x }) ;|>
    KDec.field Dec.string [] (fun t x => { t with HostName := x }) ;|>
    KDec.field Dec.int32 0 (fun t x => { t with Port := x })

/-- Where the fields of `LeaderAndIsrLiveLeader4` end. -/
def LeaderAndIsrLiveLeader4.ends (_version : Int16) (t : LeaderAndIsrLiveLeader4) : Nat → Nat :=
  Cut.ends 0 [Wire.int32 t.BrokerId,
    Wire.string t.HostName,
    Wire.int32 t.Port]

/-- What is left of `t` if only its first `n` bytes are there. -/
def LeaderAndIsrLiveLeader4.cut (version : Int16) (n : Nat) (t : LeaderAndIsrLiveLeader4) : LeaderAndIsrLiveLeader4 :=
  { BrokerId := Cut.field n (t.ends version 0) t.BrokerId 0,
    HostName := Cut.field n (t.ends version 1) t.HostName [],
    Port := Cut.field n (t.ends version 2) t.Port 0 }

/-- The same after the first `k` statements of `Decode`. -/
def LeaderAndIsrLiveLeader4.cutAt (version : Int16) (t : LeaderAndIsrLiveLeader4) (k n : Nat) : LeaderAndIsrLiveLeader4 :=
  { BrokerId := upto k 0 (Cut.field n (t.ends version 0) t.BrokerId 0) 0,
    HostName := upto k 1 (Cut.field n (t.ends version 1) t.HostName []) [],
    Port := upto k 2 (Cut.field n (t.ends version 2) t.Port 0) 0 }

/-- The first `k` fields of `y`, and zeros. -/
def LeaderAndIsrLiveLeader4.first (k : Nat) (y : LeaderAndIsrLiveLeader4) : LeaderAndIsrLiveLeader4 :=
  { BrokerId := upto k 0 y.BrokerId 0,
    HostName := upto k 1 y.HostName [],
    Port := upto k 2 y.Port 0 }

/-- `r` is a beginning of `y`, and zeros. -/
def LeaderAndIsrLiveLeader4.Part (r y : LeaderAndIsrLiveLeader4) : Prop :=
  (∃ k, k < 3 ∧ r = y.first k)

/-- `LeaderAndIsrLiveLeader4` with its receiver kept. -/
def LeaderAndIsrLiveLeader4.keeps : KeptMsg LeaderAndIsrLiveLeader4.type := { decode := LeaderAndIsrLiveLeader4.decodeK, cut := LeaderAndIsrLiveLeader4.cut, Part := LeaderAndIsrLiveLeader4.Part }

theorem LeaderAndIsrLiveLeader4.sameK (version : Int16) : KStep (LeaderAndIsrLiveLeader4.decodeK version) (LeaderAndIsrLiveLeader4.decode version) :=
  (KStep.field)
    |>.andThen (KStep.field)
    |>.andThen (KStep.field)
theorem LeaderAndIsrLiveLeader4.cutsK (version : Int16) (t : LeaderAndIsrLiveLeader4) (h : t.Fits version) :
    Cuts (LeaderAndIsrLiveLeader4.decodeK version) 0 (LeaderAndIsrLiveLeader4.wire version t) (LeaderAndIsrLiveLeader4.ends version t 2) (LeaderAndIsrLiveLeader4.cutAt version t 0) (LeaderAndIsrLiveLeader4.cutAt version t 3) :=
  (.field (reads_int32 t.BrokerId) (fun _ => rfl) (fun _ => rfl) : Cuts _ 0 _ (LeaderAndIsrLiveLeader4.ends version t 0) (LeaderAndIsrLiveLeader4.cutAt version t 0) (LeaderAndIsrLiveLeader4.cutAt version t 1))
    |>.andThen (.field (reads_string h.HostName) (fun _ => rfl) (fun _ => rfl) : Cuts _ (LeaderAndIsrLiveLeader4.ends version t 0) _ (LeaderAndIsrLiveLeader4.ends version t 1) (LeaderAndIsrLiveLeader4.cutAt version t 1) (LeaderAndIsrLiveLeader4.cutAt version t 2))
    |>.andThen (.field (reads_int32 t.Port) (fun _ => rfl) (fun _ => rfl) : Cuts _ (LeaderAndIsrLiveLeader4.ends version t 1) _ (LeaderAndIsrLiveLeader4.ends version t 2) (LeaderAndIsrLiveLeader4.cutAt version t 2) (LeaderAndIsrLiveLeader4.cutAt version t 3))
theorem LeaderAndIsrLiveLeader4.partsK (version : Int16) : Parts (LeaderAndIsrLiveLeader4.decodeK version) (LeaderAndIsrLiveLeader4.first 0) (LeaderAndIsrLiveLeader4.first 3) (fun r y => (((r = LeaderAndIsrLiveLeader4.first 0 y) ∨ (r = LeaderAndIsrLiveLeader4.first 1 y)) ∨ (r = LeaderAndIsrLiveLeader4.first 2 y))) :=
  (.field Longer.int32 (fun _ => rfl) (fun _ _ => rfl) (fun _ _ => rfl) (fun _ => rfl) : Parts (KDec.field Dec.int32 0 (fun t x => { t with BrokerId := x })) (LeaderAndIsrLiveLeader4.first 0) (LeaderAndIsrLiveLeader4.first 1) (fun r y => r = LeaderAndIsrLiveLeader4.first 0 y))
    |>.andThen (.field Longer.string (fun _ => rfl) (fun _ _ => rfl) (fun _ _ => rfl) (fun _ => rfl) : Parts (KDec.field Dec.string [] (fun t x => { t with HostName := x })) (LeaderAndIsrLiveLeader4.first 1) (LeaderAndIsrLiveLeader4.first 2) (fun r y => r = LeaderAndIsrLiveLeader4.first 1 y))
    |>.andThen (.field Longer.int32 (fun _ => rfl) (fun _ _ => rfl) (fun _ _ => rfl) (fun _ => rfl) : Parts (KDec.field Dec.int32 0 (fun t x => { t with Port := x })) (LeaderAndIsrLiveLeader4.first 2) (LeaderAndIsrLiveLeader4.first 3) (fun r y => r = LeaderAndIsrLiveLeader4.first 2 y))
theorem LeaderAndIsrLiveLeader4.filled (version : Int16) : FilledStep 10 32774 (LeaderAndIsrLiveLeader4.decode version) :=
  ((FilledStep.field .int32)
    |>.andThen (FilledStep.field .string)
    |>.andThen (FilledStep.field .int32)).mono (by decide) (by decide)
theorem LeaderAndIsrLiveLeader4.part_of (r y : LeaderAndIsrLiveLeader4) (h : (((r = LeaderAndIsrLiveLeader4.first 0 y) ∨ (r = LeaderAndIsrLiveLeader4.first 1 y)) ∨ (r = LeaderAndIsrLiveLeader4.first 2 y))) : LeaderAndIsrLiveLeader4.Part r y :=
  match h with
    | (.inl (.inl h)) => ⟨0, by decide, h⟩
    | (.inl (.inr h)) => ⟨1, by decide, h⟩
    | (.inr h) => ⟨2, by decide, h⟩
theorem LeaderAndIsrLiveLeader4.keeps_holds : LeaderAndIsrLiveLeader4.keeps.Holds LeaderAndIsrLiveLeader4.layout :=
  KeptMsg.holds LeaderAndIsrLiveLeader4.lawful LeaderAndIsrLiveLeader4.sameK (stop := fun v t => LeaderAndIsrLiveLeader4.ends v t 2) (c := fun v t => LeaderAndIsrLiveLeader4.cutAt v t 0) (fun _ _ _ => rfl) LeaderAndIsrLiveLeader4.cutsK (c0 := LeaderAndIsrLiveLeader4.first 0) rfl LeaderAndIsrLiveLeader4.partsK LeaderAndIsrLiveLeader4.part_of LeaderAndIsrLiveLeader4.filled (by decide) (by decide)

/-- message/messages.gen.go:2013-2073 `LeaderAndIsrRequest.Decode`, with the receiver kept -/
def LeaderAndIsrRequest.decodeK (version : Int16) : KDec LeaderAndIsrRequest :=
    KDec.field Dec.int32 0 (fun t x => { t with ControllerId := x }) ;|>
    KDec.field Dec.int32 0 (fun t x => { t with ControllerEpoch := x }) ;|>
    KDec.onlyIf (version ≥ 2) (KDec.field Dec.int64 0 (fun t x => { t with BrokerEpoch := x })) ;|>
    KDec.onlyIf (version ≥ 0 ∧ version ≤ 1) (KDec.fieldStructs (LeaderAndIsrPartitionState4.decodeK version {}) {} (fun t x => { t with UngroupedPartitionStates := x })) ;|>
    KDec.onlyIf (version ≥ 2) (KDec.fieldStructs (LeaderAndIsrTopicState4.decodeK version {}) {} (fun t x => { t with TopicStates := x })) ;|>
    KDec.fieldStructs (LeaderAndIsrLiveLeader4.decodeK version {}) {} (fun t x => { t with LiveLeaders := x })

/-- Where the fields of `LeaderAndIsrRequest` end. -/
def LeaderAndIsrRequest.ends (version : Int16) (t : LeaderAndIsrRequest) : Nat → Nat :=
  Cut.ends 0 [Wire.int32 t.ControllerId,
    Wire.int32 t.ControllerEpoch,
    Wire.when (version ≥ 2) (Wire.int64 t.BrokerEpoch),
    Wire.when (version ≥ 0 ∧ version ≤ 1) (Wire.array (LeaderAndIsrPartitionState4.wire version) t.UngroupedPartitionStates),
    Wire.when (version ≥ 2) (Wire.array (LeaderAndIsrTopicState4.wire version) t.TopicStates),
    Wire.array (LeaderAndIsrLiveLeader4.wire version) t.LiveLeaders]

/-- What is left of `t` if only its first `n` bytes are there. -/
def LeaderAndIsrRequest.cut (version : Int16) (n : Nat) (t : LeaderAndIsrRequest) : LeaderAndIsrRequest :=
  { ControllerId := Cut.field n (t.ends version 0) t.ControllerId 0,
    ControllerEpoch := Cut.field n (t.ends version 1) t.ControllerEpoch 0,
    BrokerEpoch := Cut.gate (version ≥ 2) (Cut.field n (t.ends version 2) t.BrokerEpoch 0) 0,
    UngroupedPartitionStates := Cut.gate (version ≥ 0 ∧ version ≤ 1) (Cut.array n (t.ends version 2) (LeaderAndIsrPartitionState4.wire version) (fun x => x.seen version {}) {} t.UngroupedPartitionStates) none,
    TopicStates := Cut.gate (version ≥ 2) (Cut.array n (t.ends version 3) (LeaderAndIsrTopicState4.wire version) (fun x => x.seen version {}) {} t.TopicStates) none,
    LiveLeaders := Cut.array n (t.ends version 4) (LeaderAndIsrLiveLeader4.wire version) (fun x => x.seen version {}) {} t.LiveLeaders }

/-- The same after the first `k` statements of `Decode`. -/
def LeaderAndIsrRequest.cutAt (version : Int16) (t : LeaderAndIsrRequest) (k n : Nat) : LeaderAndIsrRequest :=
  { ControllerId := upto k 0 (Cut.field n (t.ends version 0) t.ControllerId 0) 0,
    ControllerEpoch := upto k 1 (Cut.field n (t.ends version 1) t.ControllerEpoch 0) 0,
    BrokerEpoch := upto k 2 (Cut.gate (version ≥ 2) (Cut.field n (t.ends version 2) t.BrokerEpoch 0) 0) 0,
    UngroupedPartitionStates := upto k 3 (Cut.gate (version ≥ 0 ∧ version ≤ 1) (Cut.array n (t.ends version 2) (LeaderAndIsrPartitionState4.wire version) (fun x => x.seen version {}) {} t.UngroupedPartitionStates) none) none,
    TopicStates := upto k 4 (Cut.gate (version ≥ 2) (Cut.array n (t.ends version 3) (LeaderAndIsrTopicState4.wire version) (fun x => x.seen version {}) {} t.TopicStates) none) none,
    LiveLeaders := upto k 5 (Cut.array n (t.ends version 4) (LeaderAndIsrLiveLeader4.wire version) (fun x => x.seen version {}) {} t.LiveLeaders) none }

/-- The first `k` fields of `y`, and zeros. -/
def LeaderAndIsrRequest.first (k : Nat) (y : LeaderAndIsrRequest) : LeaderAndIsrRequest :=
  { ControllerId := upto k 0 y.ControllerId 0,
    ControllerEpoch := upto k 1 y.ControllerEpoch 0,
    BrokerEpoch := upto k 2 y.BrokerEpoch 0,
    UngroupedPartitionStates := upto k 3 y.UngroupedPartitionStates none,
    TopicStates := upto k 4 y.TopicStates none,
    LiveLeaders := upto k 5 y.LiveLeaders none }

/-- `r` is a beginning of `y`, and zeros. -/
def LeaderAndIsrRequest.Part (r y : LeaderAndIsrRequest) : Prop :=
  (∃ k, k < 6 ∧ r = y.first k) ∨
    Cut.begun {} (fun t => t.UngroupedPartitionStates) (fun t x => { t with UngroupedPartitionStates := x }) (LeaderAndIsrRequest.first 3) r y ∨
    Cut.begun {} (fun t => t.TopicStates) (fun t x => { t with TopicStates := x }) (LeaderAndIsrRequest.first 4) r y ∨
    Cut.begun {} (fun t => t.LiveLeaders) (fun t x => { t with LiveLeaders := x }) (LeaderAndIsrRequest.first 5) r y

/-- `LeaderAndIsrRequest` with its receiver kept. -/
def LeaderAndIsrRequest.keeps : KeptMsg LeaderAndIsrRequest.type := { decode := LeaderAndIsrRequest.decodeK, cut := LeaderAndIsrRequest.cut, Part := LeaderAndIsrRequest.Part }

theorem LeaderAndIsrRequest.sameK (version : Int16) : KStep (LeaderAndIsrRequest.decodeK version) (LeaderAndIsrRequest.decode version) :=
  (KStep.field)
    |>.andThen (KStep.field)
    |>.andThen (KStep.onlyIf (KStep.field))
    |>.andThen (KStep.onlyIf (KStep.structs (fun _ => rfl) (LeaderAndIsrPartitionState4.sameK version {})))
    |>.andThen (KStep.onlyIf (KStep.structs (fun _ => rfl) (LeaderAndIsrTopicState4.sameK version {})))
    |>.andThen (KStep.structs (fun _ => rfl) (LeaderAndIsrLiveLeader4.sameK version {}))
theorem LeaderAndIsrRequest.cutsK (version : Int16) (t : LeaderAndIsrRequest) (h : t.Fits version) :
    Cuts (LeaderAndIsrRequest.decodeK version) 0 (LeaderAndIsrRequest.wire version t) (LeaderAndIsrRequest.ends version t 5) (LeaderAndIsrRequest.cutAt version t 0) (LeaderAndIsrRequest.cutAt version t 6) :=
  (.field (reads_int32 t.ControllerId) (fun _ => rfl) (fun _ => rfl) : Cuts _ 0 _ (LeaderAndIsrRequest.ends version t 0) (LeaderAndIsrRequest.cutAt version t 0) (LeaderAndIsrRequest.cutAt version t 1))
    |>.andThen (.field (reads_int32 t.ControllerEpoch) (fun _ => rfl) (fun _ => rfl) : Cuts _ (LeaderAndIsrRequest.ends version t 0) _ (LeaderAndIsrRequest.ends version t 1) (LeaderAndIsrRequest.cutAt version t 1) (LeaderAndIsrRequest.cutAt version t 2))
    |>.andThen (.optField (fun _ => reads_int64 t.BrokerEpoch) (fun _ => rfl) (fun _ => rfl) : Cuts _ (LeaderAndIsrRequest.ends version t 1) _ (LeaderAndIsrRequest.ends version t 2) (LeaderAndIsrRequest.cutAt version t 2) (LeaderAndIsrRequest.cutAt version t 3))
    |>.andThen (.optStructs (LeaderAndIsrPartitionState4.sameK version {}) (fun x hx => LeaderAndIsrPartitionState4.reads version x hx {}) h.UngroupedPartitionStates (fun _ => rfl) (fun _ => rfl) : Cuts _ (LeaderAndIsrRequest.ends version t 2) _ (LeaderAndIsrRequest.ends version t 3) (LeaderAndIsrRequest.cutAt version t 3) (LeaderAndIsrRequest.cutAt version t 4))
    |>.andThen (.optStructs (LeaderAndIsrTopicState4.sameK version {}) (fun x hx => LeaderAndIsrTopicState4.reads version x hx {}) h.TopicStates (fun _ => rfl) (fun _ => rfl) : Cuts _ (LeaderAndIsrRequest.ends version t 3) _ (LeaderAndIsrRequest.ends version t 4) (LeaderAndIsrRequest.cutAt version t 4) (LeaderAndIsrRequest.cutAt version t 5))
    |>.andThen (.structs (LeaderAndIsrLiveLeader4.sameK version {}) (fun x hx => LeaderAndIsrLiveLeader4.reads version x hx {}) h.LiveLeaders (fun _ => rfl) (fun _ => rfl) : Cuts _ (LeaderAndIsrRequest.ends version t 4) _ (LeaderAndIsrRequest.ends version t 5) (LeaderAndIsrRequest.cutAt version t 5) (LeaderAndIsrRequest.cutAt version t 6))
theorem LeaderAndIsrRequest.partsK (version : Int16) : Parts (LeaderAndIsrRequest.decodeK version) (LeaderAndIsrRequest.first 0) (LeaderAndIsrRequest.first 6) (fun r y => ((((((r = LeaderAndIsrRequest.first 0 y) ∨ (r = LeaderAndIsrRequest.first 1 y)) ∨ (r = LeaderAndIsrRequest.first 2 y)) ∨ (r = LeaderAndIsrRequest.first 3 y ∨ Cut.begun {} (fun t => t.UngroupedPartitionStates) (fun t x => { t with UngroupedPartitionStates := x }) (LeaderAndIsrRequest.first 3) r y)) ∨ (r = LeaderAndIsrRequest.first 4 y ∨ Cut.begun {} (fun t => t.TopicStates) (fun t x => { t with TopicStates := x }) (LeaderAndIsrRequest.first 4) r y)) ∨ (r = LeaderAndIsrRequest.first 5 y ∨ Cut.begun {} (fun t => t.LiveLeaders) (fun t x => { t with LiveLeaders := x }) (LeaderAndIsrRequest.first 5) r y))) :=
  (.field Longer.int32 (fun _ => rfl) (fun _ _ => rfl) (fun _ _ => rfl) (fun _ => rfl) : Parts (KDec.field Dec.int32 0 (fun t x => { t with ControllerId := x })) (LeaderAndIsrRequest.first 0) (LeaderAndIsrRequest.first 1) (fun r y => r = LeaderAndIsrRequest.first 0 y))
    |>.andThen (.field Longer.int32 (fun _ => rfl) (fun _ _ => rfl) (fun _ _ => rfl) (fun _ => rfl) : Parts (KDec.field Dec.int32 0 (fun t x => { t with ControllerEpoch := x })) (LeaderAndIsrRequest.first 1) (LeaderAndIsrRequest.first 2) (fun r y => r = LeaderAndIsrRequest.first 1 y))
    |>.andThen (.onlyIf (.field Longer.int64 (fun _ => rfl) (fun _ _ => rfl) (fun _ _ => rfl) (fun _ => rfl)) (fun _ => rfl) : Parts (KDec.onlyIf (version ≥ 2) (KDec.field Dec.int64 0 (fun t x => { t with BrokerEpoch := x }))) (LeaderAndIsrRequest.first 2) (LeaderAndIsrRequest.first 3) (fun r y => r = LeaderAndIsrRequest.first 2 y))
    |>.andThen (.onlyIf (.structs (get := fun (t : LeaderAndIsrRequest) => t.UngroupedPartitionStates) ((LeaderAndIsrPartitionState4.partsK version).longer {}) (fun _ => rfl) (fun _ => rfl) (fun _ _ => rfl) (fun _ _ => rfl) (fun _ _ => rfl) (fun _ => rfl) (fun _ => rfl)) (fun _ => rfl) : Parts (KDec.onlyIf (version ≥ 0 ∧ version ≤ 1) (KDec.fieldStructs (LeaderAndIsrPartitionState4.decodeK version {}) {} (fun t x => { t with UngroupedPartitionStates := x }))) (LeaderAndIsrRequest.first 3) (LeaderAndIsrRequest.first 4) (fun r y => r = LeaderAndIsrRequest.first 3 y ∨ Cut.begun {} (fun t => t.UngroupedPartitionStates) (fun t x => { t with UngroupedPartitionStates := x }) (LeaderAndIsrRequest.first 3) r y))
    |>.andThen (.onlyIf (.structs (get := fun (t : LeaderAndIsrRequest) => t.TopicStates) ((LeaderAndIsrTopicState4.partsK version).longer {}) (fun _ => rfl) (fun _ => rfl) (fun _ _ => rfl) (fun _ _ => rfl) (fun _ _ => rfl) (fun _ => rfl) (fun _ => rfl)) (fun _ => rfl) : Parts (KDec.onlyIf (version ≥ 2) (KDec.fieldStructs (LeaderAndIsrTopicState4.decodeK version {}) {} (fun t x => { t with TopicStates := x }))) (LeaderAndIsrRequest.first 4) (LeaderAndIsrRequest.first 5) (fun r y => r = LeaderAndIsrRequest.first 4 y ∨ Cut.begun {} (fun t => t.TopicStates) (fun t x => { t with TopicStates := x }) (LeaderAndIsrRequest.first 4) r y))
    |>.andThen (.structs (get := fun (t : LeaderAndIsrRequest) => t.LiveLeaders) ((LeaderAndIsrLiveLeader4.partsK version).longer {}) (fun _ => rfl) (fun _ => rfl) (fun _ _ => rfl) (fun _ _ => rfl) (fun _ _ => rfl) (fun _ => rfl) (fun _ => rfl) : Parts (KDec.fieldStructs (LeaderAndIsrLiveLeader4.decodeK version {}) {} (fun t x => { t with LiveLeaders := x })) (LeaderAndIsrRequest.first 5) (LeaderAndIsrRequest.first 6) (fun r y => r = LeaderAndIsrRequest.first 5 y ∨ Cut.begun {} (fun t => t.LiveLeaders) (fun t x => { t with LiveLeaders := x }) (LeaderAndIsrRequest.first 5) r y))
theorem LeaderAndIsrRequest.filled (version : Int16) : FilledStep 28 105226698789 (LeaderAndIsrRequest.decode version) :=
  ((FilledStep.field .int32)
    |>.andThen (FilledStep.field .int32)
    |>.andThen (FilledStep.onlyIf (FilledStep.field .int64))
    |>.andThen (FilledStep.onlyIf (FilledStep.structs (LeaderAndIsrPartitionState4.filled version {})))
    |>.andThen (FilledStep.onlyIf (FilledStep.structs (LeaderAndIsrTopicState4.filled version {})))
    |>.andThen (FilledStep.structs (LeaderAndIsrLiveLeader4.filled version {}))).mono (by decide) (by decide)
theorem LeaderAndIsrRequest.part_of (r y : LeaderAndIsrRequest) (h : ((((((r = LeaderAndIsrRequest.first 0 y) ∨ (r = LeaderAndIsrRequest.first 1 y)) ∨ (r = LeaderAndIsrRequest.first 2 y)) ∨ (r = LeaderAndIsrRequest.first 3 y ∨ Cut.begun {} (fun t => t.UngroupedPartitionStates) (fun t x => { t with UngroupedPartitionStates := x }) (LeaderAndIsrRequest.first 3) r y)) ∨ (r = LeaderAndIsrRequest.first 4 y ∨ Cut.begun {} (fun t => t.TopicStates) (fun t x => { t with TopicStates := x }) (LeaderAndIsrRequest.first 4) r y)) ∨ (r = LeaderAndIsrRequest.first 5 y ∨ Cut.begun {} (fun t => t.LiveLeaders) (fun t x => { t with LiveLeaders := x }) (LeaderAndIsrRequest.first 5) r y))) : LeaderAndIsrRequest.Part r y :=
  match h with
    | (.inl (.inl (.inl (.inl (.inl h))))) => .inl ⟨0, by decide, h⟩
    | (.inl (.inl (.inl (.inl (.inr h))))) => .inl ⟨1, by decide, h⟩
    | (.inl (.inl (.inl (.inr h)))) => .inl ⟨2, by decide, h⟩
    | (.inl (.inl (.inr (.inl h)))) => .inl ⟨3, by decide, h⟩
    | (.inl (.inl (.inr (.inr h)))) => (.inr (.inl h))
    | (.inl (.inr (.inl h))) => .inl ⟨4, by decide, h⟩
    | (.inl (.inr (.inr h))) => (.inr (.inr (.inl h)))
    | (.inr (.inl h)) => .inl ⟨5, by decide, h⟩
    | (.inr (.inr h)) => (.inr (.inr (.inr h)))
theorem LeaderAndIsrRequest.keeps_holds : LeaderAndIsrRequest.keeps.Holds LeaderAndIsrRequest.layout :=
  KeptMsg.holds LeaderAndIsrRequest.lawful LeaderAndIsrRequest.sameK (stop := fun v t => LeaderAndIsrRequest.ends v t 5) (c := fun v t => LeaderAndIsrRequest.cutAt v t 0) (fun _ _ _ => rfl) LeaderAndIsrRequest.cutsK (c0 := LeaderAndIsrRequest.first 0) rfl LeaderAndIsrRequest.partsK LeaderAndIsrRequest.part_of LeaderAndIsrRequest.filled (by decide) (by decide)

/-- message/messages.gen.go:2371-2386 `LeaderAndIsrPartitionError4.Decode`, with the receiver kept -/
def LeaderAndIsrPartitionError4.decodeK (_version : Int16) : KDec LeaderAndIsrPartitionError4 :=
    KDec.field Dec.string [] (fun t x => { t with TopicName := x }) ;|>
    KDec.field Dec.int32 0 (fun t x => { t with PartitionIndex := x }) ;|>
    KDec.field Dec.int16 0 (fun t x => { t with ErrorCode := x })

/-- Where the fields of `LeaderAndIsrPartitionError4` end. -/
def LeaderAndIsrPartitionError4.ends (_version : Int16) (t : LeaderAndIsrPartitionError4) : Nat → Nat :=
  Cut.ends 0 [Wire.string t.TopicName,
    Wire.int32 t.PartitionIndex,
    Wire.int16 t.ErrorCode]

/-- What is left of `t` if only its first `n` bytes are there. -/
def LeaderAndIsrPartitionError4.cut (version : Int16) (n : Nat) (t : LeaderAndIsrPartitionError4) : LeaderAndIsrPartitionError4 :=
  { TopicName := Cut.field n (t.ends version 0) t.TopicName [],
    PartitionIndex := Cut.field n (t.ends version 1) t.PartitionIndex 0,
    ErrorCode := Cut.field n (t.ends version 2) t.ErrorCode 0 }

/-- The same after the first `k` statements of `Decode`. -/
def LeaderAndIsrPartitionError4.cutAt (version : Int16) (t : LeaderAndIsrPartitionError4) (k n : Nat) : LeaderAndIsrPartitionError4 :=
  { TopicName := upto k 0 (Cut.field n (t.ends version 0) t.TopicName []) [],
    PartitionIndex := upto k 1 (Cut.field n (t.ends version 1) t.PartitionIndex 0) 0,
    ErrorCode := upto k 2 (Cut.field n (t.ends version 2) t.ErrorCode 0) 0 }

/-- The first `k` fields of `y`, and zeros. -/
def LeaderAndIsrPartitionError4.first (k : Nat) (y : LeaderAndIsrPartitionError4) : LeaderAndIsrPartitionError4 :=
  { TopicName := upto k 0 y.TopicName [],
    PartitionIndex := upto k 1 y.PartitionIndex 0,
    ErrorCode := upto k 2 y.ErrorCode 0 }

/-- `r` is a beginning of `y`, and zeros. -/
def LeaderAndIsrPartitionError4.Part (r y : LeaderAndIsrPartitionError4) : Prop :=
  (∃ k, k < 3 ∧ r = y.first k)

/-- `LeaderAndIsrPartitionError4` with its receiver kept. -/
def LeaderAndIsrPartitionError4.keeps : KeptMsg LeaderAndIsrPartitionError4.type := { decode := LeaderAndIsrPartitionError4.decodeK, cut := LeaderAndIsrPartitionError4.cut, Part := LeaderAndIsrPartitionError4.Part }

theorem LeaderAndIsrPartitionError4.sameK (version : Int16) : KStep (LeaderAndIsrPartitionError4.decodeK version) (LeaderAndIsrPartitionError4.decode version) :=
  (KStep.field)
    |>.andThen (KStep.field)
    |>.andThen (KStep.field)
theorem LeaderAndIsrPartitionError4.cutsK (version : Int16) (t : LeaderAndIsrPartitionError4) (h : t.Fits version) :
    Cuts (LeaderAndIsrPartitionError4.decodeK version) 0 (LeaderAndIsrPartitionError4.wire version t) (LeaderAndIsrPartitionError4.ends version t 2) (LeaderAndIsrPartitionError4.cutAt version t 0) (LeaderAndIsrPartitionError4.cutAt version t 3) :=
  (.field (reads_string h.TopicName) (fun _ => rfl) (fun _ => rfl) : Cuts _ 0 _ (LeaderAndIsrPartitionError4.ends version t 0) (LeaderAndIsrPartitionError4.cutAt version t 0) (LeaderAndIsrPartitionError4.cutAt version t 1))
    |>.andThen (.field (reads_int32 t.PartitionIndex) (fun _ => rfl) (fun _ => rfl) : Cuts _ (LeaderAndIsrPartitionError4.ends version t 0) _ (LeaderAndIsrPartitionError4.ends version t 1) (LeaderAndIsrPartitionError4.cutAt version t 1) (LeaderAndIsrPartitionError4.cutAt version t 2))
    |>.andThen (.field (reads_int16 t.ErrorCode) (fun _ => rfl) (fun _ => rfl) : Cuts _ (LeaderAndIsrPartitionError4.ends version t 1) _ (LeaderAndIsrPartitionError4.ends version t 2) (LeaderAndIsrPartitionError4.cutAt version t 2) (LeaderAndIsrPartitionError4.cutAt version t 3))
theorem LeaderAndIsrPartitionError4.partsK (version : Int16) : Parts (LeaderAndIsrPartitionError4.decodeK version) (LeaderAndIsrPartitionError4.first 0) (LeaderAndIsrPartitionError4.first 3) (fun r y => (((r = LeaderAndIsrPartitionError4.first 0 y) ∨ (r = LeaderAndIsrPartitionError4.first 1 y)) ∨ (r = LeaderAndIsrPartitionError4.first 2 y))) :=
  (.field Longer.string (fun _ => rfl) (fun _ _ => rfl) (fun _ _ => rfl) (fun _ => rfl) : Parts (KDec.field Dec.string [] (fun t x => { t with TopicName := x })) (LeaderAndIsrPartitionError4.first 0) (LeaderAndIsrPartitionError4.first 1) (fun r y => r = LeaderAndIsrPartitionError4.first 0 y))
    |>.andThen (.field Longer.int32 (fun _ => rfl) (fun _ _ => rfl) (fun _ _ => rfl) (fun _ => rfl) : Parts (KDec.field Dec.int32 0 (fun t x => { t with PartitionIndex := x })) (LeaderAndIsrPartitionError4.first 1) (LeaderAndIsrPartitionError4.first 2) (fun r y => r = LeaderAndIsrPartitionError4.first 1 y))
    |>.andThen (.field Longer.int16 (fun _ => rfl) (fun _ _ => rfl) (fun _ _ => rfl) (fun _ => rfl) : Parts (KDec.field Dec.int16 0 (fun t x => { t with ErrorCode := x })) (LeaderAndIsrPartitionError4.first 2) (LeaderAndIsrPartitionError4.first 3) (fun r y => r = LeaderAndIsrPartitionError4.first 2 y))
theorem LeaderAndIsrPartitionError4.filled (version : Int16) : FilledStep 8 32776 (LeaderAndIsrPartitionError4.decode version) :=
  ((FilledStep.field .string)
    |>.andThen (FilledStep.field .int32)
    |>.andThen (FilledStep.field .int16)).mono (by decide) (by decide)
theorem LeaderAndIsrPartitionError4.part_of (r y : LeaderAndIsrPartitionError4) (h : (((r = LeaderAndIsrPartitionError4.first 0 y) ∨ (r = LeaderAndIsrPartitionError4.first 1 y)) ∨ (r = LeaderAndIsrPartitionError4.first 2 y))) : LeaderAndIsrPartitionError4.Part r y :=
  match h with
    | (.inl (.inl h)) => ⟨0, by decide, h⟩
    | (.inl (.inr h)) => ⟨1, by decide, h⟩
    | (.inr h) => ⟨2, by decide, h⟩
theorem LeaderAndIsrPartitionError4.keeps_holds : LeaderAndIsrPartitionError4.keeps.Holds LeaderAndIsrPartitionError4.layout :=
  KeptMsg.holds LeaderAndIsrPartitionError4.lawful LeaderAndIsrPartitionError4.sameK (stop := fun v t => LeaderAndIsrPartitionError4.ends v t 2) (c := fun v t => LeaderAndIsrPartitionError4.cutAt v t 0) (fun _ _ _ => rfl) LeaderAndIsrPartitionError4.cutsK (c0 := LeaderAndIsrPartitionError4.first 0) rfl LeaderAndIsrPartitionError4.partsK LeaderAndIsrPartitionError4.part_of LeaderAndIsrPartitionError4.filled (by decide) (by decide)

/-- message/messages.gen.go:2326-2346 `LeaderAndIsrResponse.Decode`, with the receiver kept -/
def LeaderAndIsrResponse.decodeK (version : Int16) : KDec LeaderAndIsrResponse :=
    KDec.field Dec.int16 0 (fun t x => { t with ErrorCode := x }) ;|>
    KDec.fieldStructs (LeaderAndIsrPartitionError4.decodeK version {}) {} (fun t x => { t with PartitionErrors := x })

/-- Where the fields of `LeaderAndIsrResponse` end. -/
def LeaderAndIsrResponse.ends (version : Int16) (t : LeaderAndIsrResponse) : Nat → Nat :=
  Cut.ends 0 [Wire.int16 t.ErrorCode,
    Wire.array (LeaderAndIsrPartitionError4.wire version) t.PartitionErrors]

/-- What is left of `t` if only its first `n` bytes are there. -/
def LeaderAndIsrResponse.cut (version : Int16) (n : Nat) (t : LeaderAndIsrResponse) : LeaderAndIsrResponse :=
  { ErrorCode := Cut.field n (t.ends version 0) t.ErrorCode 0,
    PartitionErrors := Cut.array n (t.ends version 0) (LeaderAndIsrPartitionError4.wire version) (fun x => x.seen version {}) {} t.PartitionErrors }

/-- The same after the first `k` statements of `Decode`. -/
def LeaderAndIsrResponse.cutAt (version : Int16) (t : LeaderAndIsrResponse) (k n : Nat) : LeaderAndIsrResponse :=
  { ErrorCode := upto k 0 (Cut.field n (t.ends version 0) t.ErrorCode 0) 0,
    PartitionErrors := upto k 1 (Cut.array n (t.ends version 0) (LeaderAndIsrPartitionError4.wire version) (fun x => x.seen version {}) {} t.PartitionErrors) none }

/-- The first `k` fields of `y`, and zeros. -/
def LeaderAndIsrResponse.first (k : Nat) (y : LeaderAndIsrResponse) : LeaderAndIsrResponse :=
  { ErrorCode := upto k 0 y.ErrorCode 0,
    PartitionErrors := upto k 1 y.PartitionErrors none }

/-- `r` is a beginning of `y`, and zeros. -/
def LeaderAndIsrResponse.Part (r y : LeaderAndIsrResponse) : Prop :=
  (∃ k, k < 2 ∧ r = y.first k) ∨
    Cut.begun {} (fun t => t.PartitionErrors) (fun t x => { t with PartitionErrors := x }) (LeaderAndIsrResponse.first 1) r y

/-- `LeaderAndIsrResponse` with its receiver kept. -/
def LeaderAndIsrResponse.keeps : KeptMsg LeaderAndIsrResponse.type := { decode := LeaderAndIsrResponse.decodeK, cut := LeaderAndIsrResponse.cut, Part := LeaderAndIsrResponse.Part }

theorem LeaderAndIsrResponse.sameK (version : Int16) : KStep (LeaderAndIsrResponse.decodeK version) (LeaderAndIsrResponse.decode version) :=
  (KStep.field)
    |>.andThen (KStep.structs (fun _ => rfl) (LeaderAndIsrPartitionError4.sameK version {}))
theorem LeaderAndIsrResponse.cutsK (version : Int16) (t : LeaderAndIsrResponse) (h : t.Fits version) :
    Cuts (LeaderAndIsrResponse.decodeK version) 0 (LeaderAndIsrResponse.wire version t) (LeaderAndIsrResponse.ends version t 1) (LeaderAndIsrResponse.cutAt version t 0) (LeaderAndIsrResponse.cutAt version t 2) :=
  (.field (reads_int16 t.ErrorCode) (fun _ => rfl) (fun _ => rfl) : Cuts _ 0 _ (LeaderAndIsrResponse.ends version t 0) (LeaderAndIsrResponse.cutAt version t 0) (LeaderAndIsrResponse.cutAt version t 1))
    |>.andThen (.structs (LeaderAndIsrPartitionError4.sameK version {}) (fun x hx => LeaderAndIsrPartitionError4.reads version x hx {}) h.PartitionErrors (fun _ => rfl) (fun _ => rfl) : Cuts _ (LeaderAndIsrResponse.ends version t 0) _ (LeaderAndIsrResponse.ends version t 1) (LeaderAndIsrResponse.cutAt version t 1) (LeaderAndIsrResponse.cutAt version t 2))
theorem LeaderAndIsrResponse.partsK (version : Int16) : Parts (LeaderAndIsrResponse.decodeK version) (LeaderAndIsrResponse.first 0) (LeaderAndIsrResponse.first 2) (fun r y => ((r = LeaderAndIsrResponse.first 0 y) ∨ (r = LeaderAndIsrResponse.first 1 y ∨ Cut.begun {} (fun t => t.PartitionErrors) (fun t x => { t with PartitionErrors := x }) (LeaderAndIsrResponse.first 1) r y))) :=
  (.field Longer.int16 (fun _ => rfl) (fun _ _ => rfl) (fun _ _ => rfl) (fun _ => rfl) : Parts (KDec.field Dec.int16 0 (fun t x => { t with ErrorCode := x })) (LeaderAndIsrResponse.first 0) (LeaderAndIsrResponse.first 1) (fun r y => r = LeaderAndIsrResponse.first 0 y))
    |>.andThen (.structs (get := fun (t : LeaderAndIsrResponse) => t.PartitionErrors) ((LeaderAndIsrPartitionError4.partsK version).longer {}) (fun _ => rfl) (fun _ => rfl) (fun _ _ => rfl) (fun _ _ => rfl) (fun _ _ => rfl) (fun _ => rfl) (fun _ => rfl) : Parts (KDec.fieldStructs (LeaderAndIsrPartitionError4.decodeK version {}) {} (fun t x => { t with PartitionErrors := x })) (LeaderAndIsrResponse.first 1) (LeaderAndIsrResponse.first 2) (fun r y => r = LeaderAndIsrResponse.first 1 y ∨ Cut.begun {} (fun t => t.PartitionErrors) (fun t x => { t with PartitionErrors := x }) (LeaderAndIsrResponse.first 1) r y))
theorem LeaderAndIsrResponse.filled (version : Int16) : FilledStep 6 17179901964 (LeaderAndIsrResponse.decode version) :=
  ((FilledStep.field .int16)
    |>.andThen (FilledStep.structs (LeaderAndIsrPartitionError4.filled version {}))).mono (by decide) (by decide)
theorem LeaderAndIsrResponse.part_of (r y : LeaderAndIsrResponse) (h : ((r = LeaderAndIsrResponse.first 0 y) ∨ (r = LeaderAndIsrResponse.first 1 y ∨ Cut.begun {} (fun t => t.PartitionErrors) (fun t x => { t with PartitionErrors := x }) (LeaderAndIsrResponse.first 1) r y))) : LeaderAndIsrResponse.Part r y :=
  match h with
    | (.inl h) => .inl ⟨0, by decide, h⟩
    | (.inr (.inl h)) => .inl ⟨1, by decide, h⟩
    | (.inr (.inr h)) => (.inr h)
theorem LeaderAndIsrResponse.keeps_holds : LeaderAndIsrResponse.keeps.Holds LeaderAndIsrResponse.layout :=
  KeptMsg.holds LeaderAndIsrResponse.lawful LeaderAndIsrResponse.sameK (stop := fun v t => LeaderAndIsrResponse.ends v t 1) (c := fun v t => LeaderAndIsrResponse.cutAt v t 0) (fun _ _ _ => rfl) LeaderAndIsrResponse.cutsK (c0 := LeaderAndIsrResponse.first 0) rfl LeaderAndIsrResponse.partsK LeaderAndIsrResponse.part_of LeaderAndIsrResponse.filled (by decide) (by decide)

/-- The structures of the LeaderAndIsr messages. -/
def keptLeaderAndIsr : List (Σ (M : MsgType) (_ : Layout M), KeptMsg M) :=
  [⟨LeaderAndIsrRequest.type, LeaderAndIsrRequest.layout, LeaderAndIsrRequest.keeps⟩,
   ⟨LeaderAndIsrTopicState4.type, LeaderAndIsrTopicState4.layout, LeaderAndIsrTopicState4.keeps⟩,
   ⟨LeaderAndIsrLiveLeader4.type, LeaderAndIsrLiveLeader4.layout, LeaderAndIsrLiveLeader4.keeps⟩,
   ⟨LeaderAndIsrPartitionState4.type, LeaderAndIsrPartitionState4.layout, LeaderAndIsrPartitionState4.keeps⟩,
   ⟨LeaderAndIsrResponse.type, LeaderAndIsrResponse.layout, LeaderAndIsrResponse.keeps⟩,
   ⟨LeaderAndIsrPartitionError4.type, LeaderAndIsrPartitionError4.layout, LeaderAndIsrPartitionError4.keeps⟩]
theorem keptLeaderAndIsr_holds : ∀ p ∈ keptLeaderAndIsr, p.2.2.Holds p.2.1 := by
  unfold keptLeaderAndIsr
  simp only [List.forall_mem_cons]
  exact ⟨LeaderAndIsrRequest.keeps_holds, LeaderAndIsrTopicState4.keeps_holds, LeaderAndIsrLiveLeader4.keeps_holds, LeaderAndIsrPartitionState4.keeps_holds, LeaderAndIsrResponse.keeps_holds, LeaderAndIsrPartitionError4.keeps_holds, fun _ h => absurd h (by simp)⟩

end Kafka.Msg
