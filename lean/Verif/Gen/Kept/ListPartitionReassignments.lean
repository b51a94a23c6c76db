import Verif.Message.KeptLemmas
import Verif.Gen.Proof.ListPartitionReassignments
/-!
Generated by tools/gen_messages.py: what is in the ListPartitionReassignments messages after an error.
-/
set_option linter.unusedVariables false
namespace Kafka.Msg

/-- message/messages.gen.go:11449-11460 `ListPartitionReassignmentsTopics46.Decode`, with the receiver kept -/
def ListPartitionReassignmentsTopics46.decodeK (_version : Int16) : KDec ListPartitionReassignmentsTopics46 :=
    KDec.field Dec.string [] (fun t x => { t with Name := x }) ;|>
    KDec.field Dec.int32Array none (fun t x => { t with PartitionIndexes := x })

/-- Where the fields of `ListPartitionReassignmentsTopics46` end. -/
def ListPartitionReassignmentsTopics46.ends (_version : Int16) (t : ListPartitionReassignmentsTopics46) : Nat → Nat :=
  Cut.ends 0 [Wire.string t.Name,
    Wire.int32Array t.PartitionIndexes]

/-- What is left of `t` if only its first `n` bytes are there. -/
def ListPartitionReassignmentsTopics46.cut (version : Int16) (n : Nat) (t : ListPartitionReassignmentsTopics46) : ListPartitionReassignmentsTopics46 :=
  { Name := Cut.field n (t.ends version 0) t.Name [],
    PartitionIndexes := Cut.field n (t.ends version 1) t.PartitionIndexes none }

/-- The same after the first `k` statements of `Decode`. -/
def ListPartitionReassignmentsTopics46.cutAt (version : Int16) (t : ListPartitionReassignmentsTopics46) (k n : Nat) : ListPartitionReassignmentsTopics46 :=
  { Name := upto k 0 (Cut.field n (t.ends version 0) t.Name []) [],
    PartitionIndexes := upto k 1 (Cut.field n (t.ends version 1) t.PartitionIndexes none) none }

/-- The first `k` fields of `y`, and zeros. -/
def ListPartitionReassignmentsTopics46.first (k : Nat) (y : ListPartitionReassignmentsTopics46) : ListPartitionReassignmentsTopics46 :=
  { Name := upto k 0 y.Name [],
    PartitionIndexes := upto k 1 y.PartitionIndexes none }

/-- `r` is a beginning of `y`, and zeros. -/
def ListPartitionReassignmentsTopics46.Part (r y : ListPartitionReassignmentsTopics46) : Prop :=
  (∃ k, k < 2 ∧ r = y.first k)

/-- `ListPartitionReassignmentsTopics46` with its receiver kept. -/
def ListPartitionReassignmentsTopics46.keeps : KeptMsg ListPartitionReassignmentsTopics46.type := { decode := ListPartitionReassignmentsTopics46.decodeK, cut := ListPartitionReassignmentsTopics46.cut, Part := ListPartitionReassignmentsTopics46.Part }

theorem ListPartitionReassignmentsTopics46.sameK (version : Int16) : KStep (ListPartitionReassignmentsTopics46.decodeK version) (ListPartitionReassignmentsTopics46.decode version) :=
  (KStep.field)
    |>.andThen (KStep.field)
theorem ListPartitionReassignmentsTopics46.cutsK (version : Int16) (t : ListPartitionReassignmentsTopics46) (h : t.Fits version) :
    Cuts (ListPartitionReassignmentsTopics46.decodeK version) 0 (ListPartitionReassignmentsTopics46.wire version t) (ListPartitionReassignmentsTopics46.ends version t 1) (ListPartitionReassignmentsTopics46.cutAt version t 0) (ListPartitionReassignmentsTopics46.cutAt version t 2) :=
  (.field (reads_string h.Name) (fun _ => rfl) (fun _ => rfl) : Cuts _ 0 _ (ListPartitionReassignmentsTopics46.ends version t 0) (ListPartitionReassignmentsTopics46.cutAt version t 0) (ListPartitionReassignmentsTopics46.cutAt version t 1))
    |>.andThen (.field (reads_int32Array h.PartitionIndexes) (fun _ => rfl) (fun _ => rfl) : Cuts _ (ListPartitionReassignmentsTopics46.ends version t 0) _ (ListPartitionReassignmentsTopics46.ends version t 1) (ListPartitionReassignmentsTopics46.cutAt version t 1) (ListPartitionReassignmentsTopics46.cutAt version t 2))
theorem ListPartitionReassignmentsTopics46.partsK (version : Int16) : Parts (ListPartitionReassignmentsTopics46.decodeK version) (ListPartitionReassignmentsTopics46.first 0) (ListPartitionReassignmentsTopics46.first 2) (fun r y => ((r = ListPartitionReassignmentsTopics46.first 0 y) ∨ (r = ListPartitionReassignmentsTopics46.first 1 y))) :=
  (.field Longer.string (fun _ => rfl) (fun _ _ => rfl) (fun _ _ => rfl) (fun _ => rfl) : Parts (KDec.field Dec.string [] (fun t x => { t with Name := x })) (ListPartitionReassignmentsTopics46.first 0) (ListPartitionReassignmentsTopics46.first 1) (fun r y => r = ListPartitionReassignmentsTopics46.first 0 y))
    |>.andThen (.field Longer.int32Array (fun _ => rfl) (fun _ _ => rfl) (fun _ _ => rfl) (fun _ => rfl) : Parts (KDec.field Dec.int32Array none (fun t x => { t with PartitionIndexes := x })) (ListPartitionReassignmentsTopics46.first 1) (ListPartitionReassignmentsTopics46.first 2) (fun r y => r = ListPartitionReassignmentsTopics46.first 1 y))
theorem ListPartitionReassignmentsTopics46.filled (version : Int16) : FilledStep 6 8589934600 (ListPartitionReassignmentsTopics46.decode version) :=
  ((FilledStep.field .string)
    |>.andThen (FilledStep.field .int32Array)).mono (by decide) (by decide)
theorem ListPartitionReassignmentsTopics46.part_of (r y : ListPartitionReassignmentsTopics46) (h : ((r = ListPartitionReassignmentsTopics46.first 0 y) ∨ (r = ListPartitionReassignmentsTopics46.first 1 y))) : ListPartitionReassignmentsTopics46.Part r y :=
  match h with
    | (.inl h) => ⟨0, by decide, h⟩
    | (.inr h) => ⟨1, by decide, h⟩
theorem ListPartitionReassignmentsTopics46.keeps_holds : ListPartitionReassignmentsTopics46.keeps.Holds ListPartitionReassignmentsTopics46.layout :=
  KeptMsg.holds ListPartitionReassignmentsTopics46.lawful ListPartitionReassignmentsTopics46.sameK (stop := fun v t => ListPartitionReassignmentsTopics46.ends v t 1) (c := fun v t => ListPartitionReassignmentsTopics46.cutAt v t 0) (fun _ _ _ => rfl) ListPartitionReassignmentsTopics46.cutsK (c0 := ListPartitionReassignmentsTopics46.first 0) rfl ListPartitionReassignmentsTopics46.partsK ListPartitionReassignmentsTopics46.part_of ListPartitionReassignmentsTopics46.filled (by decide) (by decide)

/-- message/messages.gen.go:11407-11427 `ListPartitionReassignmentsRequest.Decode`, with the receiver kept -/
def ListPartitionReassignmentsRequest.decodeK (version : Int16) : KDec ListPartitionReassignmentsRequest :=
    KDec.field Dec.int32 0 (fun t x => { t with TimeoutMs := x }) ;|>
    KDec.fieldStructs (ListPartitionReassignmentsTopics46.decodeK version {}) {} (fun t x => { t with Topics := x })

/-- Where the fields of `ListPartitionReassignmentsRequest` end. -/
def ListPartitionReassignmentsRequest.ends (version : Int16) (t : ListPartitionReassignmentsRequest) : Nat → Nat :=
  Cut.ends 0 [Wire.int32 t.TimeoutMs,
    Wire.array (ListPartitionReassignmentsTopics46.wire version) t.Topics]

/-- What is left of `t` if only its first `n` bytes are there. -/
def ListPartitionReassignmentsRequest.cut (version : Int16) (n : Nat) (t : ListPartitionReassignmentsRequest) : ListPartitionReassignmentsRequest :=
  { TimeoutMs := Cut.field n (t.ends version 0) t.TimeoutMs 0,
    Topics := Cut.array n (t.ends version 0) (ListPartitionReassignmentsTopics46.wire version) (fun x => x.seen version {}) {} t.Topics }

/-- The same after the first `k` statements of `Decode`. -/
def ListPartitionReassignmentsRequest.cutAt (version : Int16) (t : ListPartitionReassignmentsRequest) (k n : Nat) : ListPartitionReassignmentsRequest :=
  { TimeoutMs := upto k 0 (Cut.field n (t.ends version 0) t.TimeoutMs 0) 0,
    Topics := upto k 1 (Cut.array n (t.ends version 0) (ListPartitionReassignmentsTopics46.wire version) (fun x => x.seen version {}) {} t.Topics) none }

/-- The first `k` fields of `y`, and zeros. -/
def ListPartitionReassignmentsRequest.first (k : Nat) (y : ListPartitionReassignmentsRequest) : ListPartitionReassignmentsRequest :=
  { TimeoutMs := upto k 0 y.TimeoutMs 0,
    Topics := upto k 1 y.Topics none }

/-- `r` is a beginning of `y`, and zeros. -/
def ListPartitionReassignmentsRequest.Part (r y : ListPartitionReassignmentsRequest) : Prop :=
  (∃ k, k < 2 ∧ r = y.first k) ∨
    Cut.begun {} (fun t => t.Topics) (fun t x => { t with Topics := x }) (ListPartitionReassignmentsRequest.first 1) r y

/-- `ListPartitionReassignmentsRequest` with its receiver kept. -/
def ListPartitionReassignmentsRequest.keeps : KeptMsg ListPartitionReassignmentsRequest.type := { decode := ListPartitionReassignmentsRequest.decodeK, cut := ListPartitionReassignmentsRequest.cut, Part := ListPartitionReassignmentsRequest.Part }

theorem ListPartitionReassignmentsRequest.sameK (version : Int16) : KStep (ListPartitionReassignmentsRequest.decodeK version) (ListPartitionReassignmentsRequest.decode version) :=
  (KStep.field)
    |>.andThen (KStep.structs (fun _ => rfl) (ListPartitionReassignmentsTopics46.sameK version {}))
theorem ListPartitionReassignmentsRequest.cutsK (version : Int16) (t : ListPartitionReassignmentsRequest) (h : t.Fits version) :
    Cuts (ListPartitionReassignmentsRequest.decodeK version) 0 (ListPartitionReassignmentsRequest.wire version t) (ListPartitionReassignmentsRequest.ends version t 1) (ListPartitionReassignmentsRequest.cutAt version t 0) (ListPartitionReassignmentsRequest.cutAt version t 2) :=
  (.field (reads_int32 t.TimeoutMs) (fun _ => rfl) (fun _ => rfl) : Cuts _ 0 _ (ListPartitionReassignmentsRequest.ends version t 0) (ListPartitionReassignmentsRequest.cutAt version t 0) (ListPartitionReassignmentsRequest.cutAt version t 1))
    |>.andThen (.structs (ListPartitionReassignmentsTopics46.sameK version {}) (fun x hx => ListPartitionReassignmentsTopics46.reads version x hx {}) h.Topics (fun _ => rfl) (fun _ => rfl) : Cuts _ (ListPartitionReassignmentsRequest.ends version t 0) _ (ListPartitionReassignmentsRequest.ends version t 1) (ListPartitionReassignmentsRequest.cutAt version t 1) (ListPartitionReassignmentsRequest.cutAt version t 2))
theorem ListPartitionReassignmentsRequest.partsK (version : Int16) : Parts (ListPartitionReassignmentsRequest.decodeK version) (ListPartitionReassignmentsRequest.first 0) (ListPartitionReassignmentsRequest.first 2) (fun r y => ((r = ListPartitionReassignmentsRequest.first 0 y) ∨ (r = ListPartitionReassignmentsRequest.first 1 y ∨ Cut.begun {} (fun t => t.Topics) (fun t x => { t with Topics := x }) (ListPartitionReassignmentsRequest.first 1) r y))) :=
  (.field Longer.int32 (fun _ => rfl) (fun _ _ => rfl) (fun _ _ => rfl) (fun _ => rfl) : Parts (KDec.field Dec.int32 0 (fun t x => { t with TimeoutMs := x })) (ListPartitionReassignmentsRequest.first 0) (ListPartitionReassignmentsRequest.first 1) (fun r y => r = ListPartitionReassignmentsRequest.first 0 y))
    |>.andThen (.structs (get := fun (t : ListPartitionReassignmentsRequest) => t.Topics) ((ListPartitionReassignmentsTopics46.partsK version).longer {}) (fun _ => rfl) (fun _ => rfl) (fun _ _ => rfl) (fun _ _ => rfl) (fun _ _ => rfl) (fun _ => rfl) (fun _ => rfl) : Parts (KDec.fieldStructs (ListPartitionReassignmentsTopics46.decodeK version {}) {} (fun t x => { t with Topics := x })) (ListPartitionReassignmentsRequest.first 1) (ListPartitionReassignmentsRequest.first 2) (fun r y => r = ListPartitionReassignmentsRequest.first 1 y ∨ Cut.begun {} (fun t => t.Topics) (fun t x => { t with Topics := x }) (ListPartitionReassignmentsRequest.first 1) r y))
theorem ListPartitionReassignmentsRequest.filled (version : Int16) : FilledStep 8 21474836492 (ListPartitionReassignmentsRequest.decode version) :=
  ((FilledStep.field .int32)
    |>.andThen (FilledStep.structs (ListPartitionReassignmentsTopics46.filled version {}))).mono (by decide) (by decide)
theorem ListPartitionReassignmentsRequest.part_of (r y : ListPartitionReassignmentsRequest) (h : ((r = ListPartitionReassignmentsRequest.first 0 y) ∨ (r = ListPartitionReassignmentsRequest.first 1 y ∨ Cut.begun {} (fun t => t.Topics) (fun t x => { t with Topics := x }) (ListPartitionReassignmentsRequest.first 1) r y))) : ListPartitionReassignmentsRequest.Part r y :=
  match h with
    | (.inl h) => .inl ⟨0, by decide, h⟩
    | (.inr (.inl h)) => .inl ⟨1, by decide, h⟩
    | (.inr (.inr h)) => (.inr h)
theorem ListPartitionReassignmentsRequest.keeps_holds : ListPartitionReassignmentsRequest.keeps.Holds ListPartitionReassignmentsRequest.layout :=
  KeptMsg.holds ListPartitionReassignmentsRequest.lawful ListPartitionReassignmentsRequest.sameK (stop := fun v t => ListPartitionReassignmentsRequest.ends v t 1) (c := fun v t => ListPartitionReassignmentsRequest.cutAt v t 0) (fun _ _ _ => rfl) ListPartitionReassignmentsRequest.cutsK (c0 := ListPartitionReassignmentsRequest.first 0) rfl ListPartitionReassignmentsRequest.partsK ListPartitionReassignmentsRequest.part_of ListPartitionReassignmentsRequest.filled (by decide) (by decide)

/-- message/messages.gen.go:11603-11622 `OngoingPartitionReassignment46.Decode`, with the receiver kept -/
def OngoingPartitionReassignment46.decodeK (_version : Int16) : KDec OngoingPartitionReassignment46 :=
    KDec.field Dec.int32 0 (fun t x => { t with PartitionIndex := x }) ;|>
    KDec.field Dec.int32Array none (fun t x => { t with Replicas := x }) ;|>
    KDec.field Dec.int32Array none (fun t x => { t with AddingReplicas := x }) ;|>
    KDec.field Dec.int32Array none (fun t x => { t with RemovingReplicas := x })

/-- Where the fields of `OngoingPartitionReassignment46` end. -/
def OngoingPartitionReassignment46.ends (_version : Int16) (t : OngoingPartitionReassignment46) : Nat → Nat :=
  Cut.ends 0 [Wire.int32 t.PartitionIndex,
    Wire.int32Array t.Replicas,
    Wire.int32Array t.AddingReplicas,
    Wire.int32Array t.RemovingReplicas]

/-- What is left of `t` if only its first `n` bytes are there. -/
def OngoingPartitionReassignment46.cut (version : Int16) (n : Nat) (t : OngoingPartitionReassignment46) : OngoingPartitionReassignment46 :=
  { PartitionIndex := Cut.field n (t.ends version 0) t.PartitionIndex 0,
    Replicas := Cut.field n (t.ends version 1) t.Replicas none,
    AddingReplicas := Cut.field n (t.ends version 2) t.AddingReplicas none,
    RemovingReplicas := Cut.field n (t.ends version 3) t.RemovingReplicas none }

/-- The same after the first `k` statements of `Decode`. -/
def OngoingPartitionReassignment46.cutAt (version : Int16) (t : OngoingPartitionReassignment46) (k n : Nat) : OngoingPartitionReassignment46 :=
  { PartitionIndex := upto k 0 (Cut.field n (t.ends version 0) t.PartitionIndex 0) 0,
    Replicas := upto k 1 (Cut.field n (t.ends version 1) t.Replicas none) none,
    AddingReplicas := upto k 2 (Cut.field n (t.ends version 2) t.AddingReplicas none) none,
    RemovingReplicas := upto k 3 (Cut.field n (t.ends version 3) t.RemovingReplicas none) none }

/-- The first `k` fields of `y`, and zeros. -/
def OngoingPartitionReassignment46.first (k : Nat) (y : OngoingPartitionReassignment46) : OngoingPartitionReassignment46 :=
  { PartitionIndex := upto k 0 y.PartitionIndex 0,
    Replicas := upto k 1 y.Replicas none,
    AddingReplicas := upto k 2 y.AddingReplicas none,
    RemovingReplicas := upto k 3 y.RemovingReplicas none }

/-- `r` is a beginning of `y`, and zeros. -/
def OngoingPartitionReassignment46.Part (r y : OngoingPartitionReassignment46) : Prop :=
  (∃ k, k < 4 ∧ r = y.first k)

/-- `OngoingPartitionReassignment46` with its receiver kept. -/
def OngoingPartitionReassignment46.keeps : KeptMsg OngoingPartitionReassignment46.type := { decode := OngoingPartitionReassignment46.decodeK, cut := OngoingPartitionReassignment46.cut, Part := OngoingPartitionReassignment46.Part }

theorem OngoingPartitionReassignment46.sameK (version : Int16) : KStep (OngoingPartitionReassignment46.decodeK version) (OngoingPartitionReassignment46.decode version) :=
  (KStep.field)
    |>.andThen (KStep.field)
    |>.andThen (KStep.field)
    |>.andThen (KStep.field)
theorem OngoingPartitionReassignment46.cutsK (version : Int16) (t : OngoingPartitionReassignment46) (h : t.Fits version) :
    Cuts (OngoingPartitionReassignment46.decodeK version) 0 (OngoingPartitionReassignment46.wire version t) (OngoingPartitionReassignment46.ends version t 3) (OngoingPartitionReassignment46.cutAt version t 0) (OngoingPartitionReassignment46.cutAt version t 4) :=
  (.field (reads_int32 t.PartitionIndex) (fun _ => rfl) (fun _ => rfl) : Cuts _ 0 _ (OngoingPartitionReassignment46.ends version t 0) (OngoingPartitionReassignment46.cutAt version t 0) (OngoingPartitionReassignment46.cutAt version t 1))
    |>.andThen (.field (reads_int32Array h.Replicas) (fun _ => rfl) (fun _ => rfl) : Cuts _ (OngoingPartitionReassignment46.ends version t 0) _ (OngoingPartitionReassignment46.ends version t 1) (OngoingPartitionReassignment46.cutAt version t 1) (OngoingPartitionReassignment46.cutAt version t 2))
    |>.andThen (.field (reads_int32Array h.AddingReplicas) (fun _ => rfl) (fun _ => rfl) : Cuts _ (OngoingPartitionReassignment46.ends version t 1) _ (OngoingPartitionReassignment46.ends version t 2) (OngoingPartitionReassignment46.cutAt version t 2) (OngoingPartitionReassignment46.cutAt version t 3))
    |>.andThen (.field (reads_int32Array h.RemovingReplicas) (fun _ => rfl) (fun _ => rfl) : Cuts _ (OngoingPartitionReassignment46.ends version t 2) _ (OngoingPartitionReassignment46.ends version t 3) (OngoingPartitionReassignment46.cutAt version t 3) (OngoingPartitionReassignment46.cutAt version t 4))
theorem OngoingPartitionReassignment46.partsK (version : Int16) : Parts (OngoingPartitionReassignment46.decodeK version) (OngoingPartitionReassignment46.first 0) (OngoingPartitionReassignment46.first 4) (fun r y => ((((r = OngoingPartitionReassignment46.first 0 y) ∨ (r = OngoingPartitionReassignment46.first 1 y)) ∨ (r = OngoingPartitionReassignment46.first 2 y)) ∨ (r = OngoingPartitionReassignment46.first 3 y))) :=
  (.field Longer.int32 (fun _ => rfl) (fun _ _ => rfl) (fun _ _ => rfl) (fun _ => rfl) : Parts (KDec.field Dec.int32 0 (fun t x => { t with PartitionIndex := x })) (OngoingPartitionReassignment46.first 0) (OngoingPartitionReassignment46.first 1) (fun r y => r = OngoingPartitionReassignment46.first 0 y))
    |>.andThen (.field Longer.int32Array (fun _ => rfl) (fun _ _ => rfl) (fun _ _ => rfl) (fun _ => rfl) : Parts (KDec.field Dec.int32Array none (fun t x => { t with Replicas := x })) (OngoingPartitionReassignment46.first 1) (OngoingPartitionReassignment46.first 2) (fun r y => r = OngoingPartitionReassignment46.first 1 y))
    |>.andThen (.field Longer.int32Array (fun _ => rfl) (fun _ _ => rfl) (fun _ _ => rfl) (fun _ => rfl) : Parts (KDec.field Dec.int32Array none (fun t x => { t with AddingReplicas := x })) (OngoingPartitionReassignment46.first 2) (OngoingPartitionReassignment46.first 3) (fun r y => r = OngoingPartitionReassignment46.first 2 y))
    |>.andThen (.field Longer.int32Array (fun _ => rfl) (fun _ _ => rfl) (fun _ _ => rfl) (fun _ => rfl) : Parts (KDec.field Dec.int32Array none (fun t x => { t with RemovingReplicas := x })) (OngoingPartitionReassignment46.first 3) (OngoingPartitionReassignment46.first 4) (fun r y => r = OngoingPartitionReassignment46.first 3 y))
theorem OngoingPartitionReassignment46.filled (version : Int16) : FilledStep 16 8589934608 (OngoingPartitionReassignment46.decode version) :=
  ((FilledStep.field .int32)
    |>.andThen (FilledStep.field .int32Array)
    |>.andThen (FilledStep.field .int32Array)
    |>.andThen (FilledStep.field .int32Array)).mono (by decide) (by decide)
theorem OngoingPartitionReassignment46.part_of (r y : OngoingPartitionReassignment46) (h : ((((r = OngoingPartitionReassignment46.first 0 y) ∨ (r = OngoingPartitionReassignment46.first 1 y)) ∨ (r = OngoingPartitionReassignment46.first 2 y)) ∨ (r = OngoingPartitionReassignment46.first 3 y))) : OngoingPartitionReassignment46.Part r y :=
  match h with
    | (.inl (.inl (.inl h))) => ⟨0, by decide, h⟩
    | (.inl (.inl (.inr h))) => ⟨1, by decide, h⟩
    | (.inl (.inr h)) => ⟨2, by decide, h⟩
    | (.inr h) => ⟨3, by decide, h⟩
theorem OngoingPartitionReassignment46.keeps_holds : OngoingPartitionReassignment46.keeps.Holds OngoingPartitionReassignment46.layout :=
  KeptMsg.holds OngoingPartitionReassignment46.lawful OngoingPartitionReassignment46.sameK (stop := fun v t => OngoingPartitionReassignment46.ends v t 3) (c := fun v t => OngoingPartitionReassignment46.cutAt v t 0) (fun _ _ _ => rfl) OngoingPartitionReassignment46.cutsK (c0 := OngoingPartitionReassignment46.first 0) rfl OngoingPartitionReassignment46.partsK OngoingPartitionReassignment46.part_of OngoingPartitionReassignment46.filled (by decide) (by decide)

/-- message/messages.gen.go:11555-11575 `OngoingTopicReassignment46.Decode`, with the receiver kept -/
def OngoingTopicReassignment46.decodeK (version : Int16) : KDec OngoingTopicReassignment46 :=
    KDec.field Dec.string [] (fun t x => { t with Name := x }) ;|>
    KDec.fieldStructs (OngoingPartitionReassignment46.decodeK version {}) {} (fun t x => { t with Partitions := x })

/-- Where the fields of `OngoingTopicReassignment46` end. -/
def OngoingTopicReassignment46.ends (version : Int16) (t : OngoingTopicReassignment46) : Nat → Nat :=
  Cut.ends 0 [Wire.string t.Name,
    Wire.array (OngoingPartitionReassignment46.wire version) t.Partitions]

/-- What is left of `t` if only its first `n` bytes are there. -/
def OngoingTopicReassignment46.cut (version : Int16) (n : Nat) (t : OngoingTopicReassignment46) : OngoingTopicReassignment46 :=
  { Name := Cut.field n (t.ends version 0) t.Name [],
    Partitions := Cut.array n (t.ends version 0) (OngoingPartitionReassignment46.wire version) (fun x => x.seen version {}) {} t.Partitions }

/-- The same after the first `k` statements of `Decode`. -/
def OngoingTopicReassignment46.cutAt (version : Int16) (t : OngoingTopicReassignment46) (k n : Nat) : OngoingTopicReassignment46 :=
  { Name := upto k 0 (Cut.field n (t.ends version 0) t.Name []) [],
    Partitions := upto k 1 (Cut.array n (t.ends version 0) (OngoingPartitionReassignment46.wire version) (fun x => x.seen version {}) {} t.Partitions) none }

/-- The first `k` fields of `y`, and zeros. -/
def OngoingTopicReassignment46.first (k : Nat) (y : OngoingTopicReassignment46) : OngoingTopicReassignment46 :=
  { Name := upto k 0 y.Name [],
    Partitions := upto k 1 y.Partitions none }

/-- `r` is a beginning of `y`, and zeros. -/
def OngoingTopicReassignment46.Part (r y : OngoingTopicReassignment46) : Prop :=
  (∃ k, k < 2 ∧ r = y.first k) ∨
    Cut.begun {} (fun t => t.Partitions) (fun t x => { t with Partitions := x }) (OngoingTopicReassignment46.first 1) r y

/-- `OngoingTopicReassignment46` with its receiver kept. -/
def OngoingTopicReassignment46.keeps : KeptMsg OngoingTopicReassignment46.type := { decode := OngoingTopicReassignment46.decodeK, cut := OngoingTopicReassignment46.cut, Part := OngoingTopicReassignment46.Part }

theorem OngoingTopicReassignment46.sameK (version : Int16) : KStep (OngoingTopicReassignment46.decodeK version) (OngoingTopicReassignment46.decode version) :=
  (KStep.field)
    |>.andThen (KStep.structs (fun _ => rfl) (OngoingPartitionReassignment46.sameK version {}))
theorem OngoingTopicReassignment46.cutsK (version : Int16) (t : OngoingTopicReassignment46) (h : t.Fits version) :
    Cuts (OngoingTopicReassignment46.decodeK version) 0 (OngoingTopicReassignment46.wire version t) (OngoingTopicReassignment46.ends version t 1) (OngoingTopicReassignment46.cutAt version t 0) (OngoingTopicReassignment46.cutAt version t 2) :=
  (.field (reads_string h.Name) (fun _ => rfl) (fun _ => rfl) : Cuts _ 0 _ (OngoingTopicReassignment46.ends version t 0) (OngoingTopicReassignment46.cutAt version t 0) (OngoingTopicReassignment46.cutAt version t 1))
    |>.andThen (.structs (OngoingPartitionReassignment46.sameK version {}) (fun x hx => OngoingPartitionReassignment46.reads version x hx {}) h.Partitions (fun _ => rfl) (fun _ => rfl) : Cuts _ (OngoingTopicReassignment46.ends version t 0) _ (OngoingTopicReassignment46.ends version t 1) (OngoingTopicReassignment46.cutAt version t 1) (OngoingTopicReassignment46.cutAt version t 2))
theorem OngoingTopicReassignment46.partsK (version : Int16) : Parts (OngoingTopicReassignment46.decodeK version) (OngoingTopicReassignment46.first 0) (OngoingTopicReassignment46.first 2) (fun r y => ((r = OngoingTopicReassignment46.first 0 y) ∨ (r = OngoingTopicReassignment46.first 1 y ∨ Cut.begun {} (fun t => t.Partitions) (fun t x => { t with Partitions := x }) (OngoingTopicReassignment46.first 1) r y))) :=
  (.field Longer.string (fun _ => rfl) (fun _ _ => rfl) (fun _ _ => rfl) (fun _ => rfl) : Parts (KDec.field Dec.string [] (fun t x => { t with Name := x })) (OngoingTopicReassignment46.first 0) (OngoingTopicReassignment46.first 1) (fun r y => r = OngoingTopicReassignment46.first 0 y))
    |>.andThen (.structs (get := fun (t : OngoingTopicReassignment46) => t.Partitions) ((OngoingPartitionReassignment46.partsK version).longer {}) (fun _ => rfl) (fun _ => rfl) (fun _ _ => rfl) (fun _ _ => rfl) (fun _ _ => rfl) (fun _ => rfl) (fun _ => rfl) : Parts (KDec.fieldStructs (OngoingPartitionReassignment46.decodeK version {}) {} (fun t x => { t with Partitions := x })) (OngoingTopicReassignment46.first 1) (OngoingTopicReassignment46.first 2) (fun r y => r = OngoingTopicReassignment46.first 1 y ∨ Cut.begun {} (fun t => t.Partitions) (fun t x => { t with Partitions := x }) (OngoingTopicReassignment46.first 1) r y))
theorem OngoingTopicReassignment46.filled (version : Int16) : FilledStep 6 42949672980 (OngoingTopicReassignment46.decode version) :=
  ((FilledStep.field .string)
    |>.andThen (FilledStep.structs (OngoingPartitionReassignment46.filled version {}))).mono (by decide) (by decide)
theorem OngoingTopicReassignment46.part_of (r y : OngoingTopicReassignment46) (h : ((r = OngoingTopicReassignment46.first 0 y) ∨ (r = OngoingTopicReassignment46.first 1 y ∨ Cut.begun {} (fun t => t.Partitions) (fun t x => { t with Partitions := x }) (OngoingTopicReassignment46.first 1) r y))) : OngoingTopicReassignment46.Part r y :=
  match h with
    | (.inl h) => .inl ⟨0, by decide, h⟩
    | (.inr (.inl h)) => .inl ⟨1, by decide, h⟩
    | (.inr (.inr h)) => (.inr h)
theorem OngoingTopicReassignment46.keeps_holds : OngoingTopicReassignment46.keeps.Holds OngoingTopicReassignment46.layout :=
  KeptMsg.holds OngoingTopicReassignment46.lawful OngoingTopicReassignment46.sameK (stop := fun v t => OngoingTopicReassignment46.ends v t 1) (c := fun v t => OngoingTopicReassignment46.cutAt v t 0) (fun _ _ _ => rfl) OngoingTopicReassignment46.cutsK (c0 := OngoingTopicReassignment46.first 0) rfl OngoingTopicReassignment46.partsK OngoingTopicReassignment46.part_of OngoingTopicReassignment46.filled (by decide) (by decide)

/-- message/messages.gen.go:11497-11525 `ListPartitionReassignmentsResponse.Decode`, with the receiver kept -/
def ListPartitionReassignmentsResponse.decodeK (version : Int16) : KDec ListPartitionReassignmentsResponse :=
    KDec.field Dec.int32 0 (fun t x => { t with ThrottleTimeMs := x }) ;|>
    KDec.field Dec.int16 0 (fun t x => { t with ErrorCode := x }) ;|>
    KDec.field Dec.string [] (fun t x => { t with ErrorMessage := x }) ;|>
    KDec.fieldStructs (OngoingTopicReassignment46.decodeK version {}) {} (fun t x => { t with Topics := x })

/-- Where the fields of `ListPartitionReassignmentsResponse` end. -/
def ListPartitionReassignmentsResponse.ends (version : Int16) (t : ListPartitionReassignmentsResponse) : Nat → Nat :=
  Cut.ends 0 [Wire.int32 t.ThrottleTimeMs,
    Wire.int16 t.ErrorCode,
    Wire.string t.ErrorMessage,
    Wire.array (OngoingTopicReassignment46.wire version) t.Topics]

/-- What is left of `t` if only its first `n` bytes are there. -/
def ListPartitionReassignmentsResponse.cut (version : Int16) (n : Nat) (t : ListPartitionReassignmentsResponse) : ListPartitionReassignmentsResponse :=
  { ThrottleTimeMs := Cut.field n (t.ends version 0) t.ThrottleTimeMs 0,
    ErrorCode := Cut.field n (t.ends version 1) t.ErrorCode 0,
    ErrorMessage := Cut.field n (t.ends version 2) t.ErrorMessage [],
    Topics := Cut.array n (t.ends version 2) (OngoingTopicReassignment46.wire version) (fun x => x.seen version {}) {} t.Topics }

/-- The same after the first `k` statements of `Decode`. -/
def ListPartitionReassignmentsResponse.cutAt (version : Int16) (t : ListPartitionReassignmentsResponse) (k n : Nat) : ListPartitionReassignmentsResponse :=
  { ThrottleTimeMs := upto k 0 (Cut.field n (t.ends version 0) t.ThrottleTimeMs 0) 0,
    ErrorCode := upto k 1 (Cut.field n (t.ends version 1) t.ErrorCode 0) 0,
    ErrorMessage := upto k 2 (Cut.field n (t.ends version 2) t.ErrorMessage []) [],
    Topics := upto k 3 (Cut.array n (t.ends version 2) (OngoingTopicReassignment46.wire version) (fun x => x.seen version {}) {} t.Topics) none }

/-- The first `k` fields of `y`, and zeros. -/
def ListPartitionReassignmentsResponse.first (k : Nat) (y : ListPartitionReassignmentsResponse) : ListPartitionReassignmentsResponse :=
  { ThrottleTimeMs := upto k 0 y.ThrottleTimeMs 0,
    ErrorCode := upto k 1 y.ErrorCode 0,
    ErrorMessage := upto k 2 y.ErrorMessage [],
    Topics := upto k 3 y.Topics none }

/-- `r` is a beginning of `y`, and zeros. -/
def ListPartitionReassignmentsResponse.Part (r y : ListPartitionReassignmentsResponse) : Prop :=
  (∃ k, k < 4 ∧ r = y.first k) ∨
    Cut.begun {} (fun t => t.Topics) (fun t x => { t with Topics := x }) (ListPartitionReassignmentsResponse.first 3) r y

/-- `ListPartitionReassignmentsResponse` with its receiver kept. -/
def ListPartitionReassignmentsResponse.keeps : KeptMsg ListPartitionReassignmentsResponse.type := { decode := ListPartitionReassignmentsResponse.decodeK, cut := ListPartitionReassignmentsResponse.cut, Part := ListPartitionReassignmentsResponse.Part }

theorem ListPartitionReassignmentsResponse.sameK (version : Int16) : KStep (ListPartitionReassignmentsResponse.decodeK version) (ListPartitionReassignmentsResponse.decode version) :=
  (KStep.field)
    |>.andThen (KStep.field)
    |>.andThen (KStep.field)
    |>.andThen (KStep.structs (fun _ => rfl) (OngoingTopicReassignment46.sameK version {}))
theorem ListPartitionReassignmentsResponse.cutsK (version : Int16) (t : ListPartitionReassignmentsResponse) (h : t.Fits version) :
    Cuts (ListPartitionReassignmentsResponse.decodeK version) 0 (ListPartitionReassignmentsResponse.wire version t) (ListPartitionReassignmentsResponse.ends version t 3) (ListPartitionReassignmentsResponse.cutAt version t 0) (ListPartitionReassignmentsResponse.cutAt version t 4) :=
  (.field (reads_int32 t.ThrottleTimeMs) (fun _ => rfl) (fun _ => rfl) : Cuts _ 0 _ (ListPartitionReassignmentsResponse.ends version t 0) (ListPartitionReassignmentsResponse.cutAt version t 0) (ListPartitionReassignmentsResponse.cutAt version t 1))
    |>.andThen (.field (reads_int16 t.ErrorCode) (fun _ => rfl) (fun _ => rfl) : Cuts _ (ListPartitionReassignmentsResponse.ends version t 0) _ (ListPartitionReassignmentsResponse.ends version t 1) (ListPartitionReassignmentsResponse.cutAt version t 1) (ListPartitionReassignmentsResponse.cutAt version t 2))
    |>.andThen (.field (reads_string h.ErrorMessage) (fun _ => rfl) (fun _ => rfl) : Cuts _ (ListPartitionReassignmentsResponse.ends version t 1) _ (ListPartitionReassignmentsResponse.ends version t 2) (ListPartitionReassignmentsResponse.cutAt version t 2) (ListPartitionReassignmentsResponse.cutAt version t 3))
    |>.andThen (.structs (OngoingTopicReassignment46.sameK version {}) (fun x hx => OngoingTopicReassignment46.reads version x hx {}) h.Topics (fun _ => rfl) (fun _ => rfl) : Cuts _ (ListPartitionReassignmentsResponse.ends version t 2) _ (ListPartitionReassignmentsResponse.ends version t 3) (ListPartitionReassignmentsResponse.cutAt version t 3) (ListPartitionReassignmentsResponse.cutAt version t 4))
theorem ListPartitionReassignmentsResponse.partsK (version : Int16) : Parts (ListPartitionReassignmentsResponse.decodeK version) (ListPartitionReassignmentsResponse.first 0) (ListPartitionReassignmentsResponse.first 4) (fun r y => ((((r = ListPartitionReassignmentsResponse.first 0 y) ∨ (r = ListPartitionReassignmentsResponse.first 1 y)) ∨ (r = ListPartitionReassignmentsResponse.first 2 y)) ∨ (r = ListPartitionReassignmentsResponse.first 3 y ∨ Cut.begun {} (fun t => t.Topics) (fun t x => { t with Topics := x }) (ListPartitionReassignmentsResponse.first 3) r y))) :=
  (.field Longer.int32 (fun _ => rfl) (fun _ _ => rfl) (fun _ _ => rfl) (fun _ => rfl) : Parts (KDec.field Dec.int32 0 (fun t x => { t with ThrottleTimeMs := x })) (ListPartitionReassignmentsResponse.first 0) (ListPartitionReassignmentsResponse.first 1) (fun r y => r = ListPartitionReassignmentsResponse.first 0 y))
    |>.andThen (.field Longer.int16 (fun _ => rfl) (fun _ _ => rfl) (fun _ _ => rfl) (fun _ => rfl) : Parts (KDec.field Dec.int16 0 (fun t x => { t with ErrorCode := x })) (ListPartitionReassignmentsResponse.first 1) (ListPartitionReassignmentsResponse.first 2) (fun r y => r = ListPartitionReassignmentsResponse.first 1 y))
    |>.andThen (.field Longer.string (fun _ => rfl) (fun _ _ => rfl) (fun _ _ => rfl) (fun _ => rfl) : Parts (KDec.field Dec.string [] (fun t x => { t with ErrorMessage := x })) (ListPartitionReassignmentsResponse.first 2) (ListPartitionReassignmentsResponse.first 3) (fun r y => r = ListPartitionReassignmentsResponse.first 2 y))
    |>.andThen (.structs (get := fun (t : ListPartitionReassignmentsResponse) => t.Topics) ((OngoingTopicReassignment46.partsK version).longer {}) (fun _ => rfl) (fun _ => rfl) (fun _ _ => rfl) (fun _ _ => rfl) (fun _ _ => rfl) (fun _ => rfl) (fun _ => rfl) : Parts (KDec.fieldStructs (OngoingTopicReassignment46.decodeK version {}) {} (fun t x => { t with Topics := x })) (ListPartitionReassignmentsResponse.first 3) (ListPartitionReassignmentsResponse.first 4) (fun r y => r = ListPartitionReassignmentsResponse.first 3 y ∨ Cut.begun {} (fun t => t.Topics) (fun t x => { t with Topics := x }) (ListPartitionReassignmentsResponse.first 3) r y))
theorem ListPartitionReassignmentsResponse.filled (version : Int16) : FilledStep 12 55834574872 (ListPartitionReassignmentsResponse.decode version) :=
  ((FilledStep.field .int32)
    |>.andThen (FilledStep.field .int16)
    |>.andThen (FilledStep.field .string)
    |>.andThen (FilledStep.structs (OngoingTopicReassignment46.filled version {}))).mono (by decide) (by decide)
theorem ListPartitionReassignmentsResponse.part_of (r y : ListPartitionReassignmentsResponse) (h : ((((r = ListPartitionReassignmentsResponse.first 0 y) ∨ (r = ListPartitionReassignmentsResponse.first 1 y)) ∨ (r = ListPartitionReassignmentsResponse.first 2 y)) ∨ (r = ListPartitionReassignmentsResponse.first 3 y ∨ Cut.begun {} (fun t => t.Topics) (fun t x => { t with Topics := x }) (ListPartitionReassignmentsResponse.first 3) r y))) : ListPartitionReassignmentsResponse.Part r y :=
  match h with
    | (.inl (.inl (.inl h))) => .inl ⟨0, by decide, h⟩
    | (.inl (.inl (.inr h))) => .inl ⟨1, by decide, h⟩
    | (.inl (.inr h)) => .inl ⟨2, by decide, h⟩
    | (.inr (.inl h)) => .inl ⟨3, by decide, h⟩
    | (.inr (.inr h)) => (.inr h)
theorem ListPartitionReassignmentsResponse.keeps_holds : ListPartitionReassignmentsResponse.keeps.Holds ListPartitionReassignmentsResponse.layout :=
  KeptMsg.holds ListPartitionReassignmentsResponse.lawful ListPartitionReassignmentsResponse.sameK (stop := fun v t => ListPartitionReassignmentsResponse.ends v t 3) (c := fun v t => ListPartitionReassignmentsResponse.cutAt v t 0) (fun _ _ _ => rfl) ListPartitionReassignmentsResponse.cutsK (c0 := ListPartitionReassignmentsResponse.first 0) rfl ListPartitionReassignmentsResponse.partsK ListPartitionReassignmentsResponse.part_of ListPartitionReassignmentsResponse.filled (by decide) (by decide)

/-- The structures of the ListPartitionReassignments messages. -/
def keptListPartitionReassignments : List (Σ (M : MsgType) (_ : Layout M), KeptMsg M) :=
  [⟨ListPartitionReassignmentsRequest.type, ListPartitionReassignmentsRequest.layout, ListPartitionReassignmentsRequest.keeps⟩,
   ⟨ListPartitionReassignmentsTopics46.type, ListPartitionReassignmentsTopics46.layout, ListPartitionReassignmentsTopics46.keeps⟩,
   ⟨ListPartitionReassignmentsResponse.type, ListPartitionReassignmentsResponse.layout, ListPartitionReassignmentsResponse.keeps⟩,
   ⟨OngoingTopicReassignment46.type, OngoingTopicReassignment46.layout, OngoingTopicReassignment46.keeps⟩,
   ⟨OngoingPartitionReassignment46.type, OngoingPartitionReassignment46.layout, OngoingPartitionReassignment46.keeps⟩]
theorem keptListPartitionReassignments_holds : ∀ p ∈ keptListPartitionReassignments, p.2.2.Holds p.2.1 := by
  unfold keptListPartitionReassignments
  simp only [List.forall_mem_cons]
  exact ⟨ListPartitionReassignmentsRequest.keeps_holds, ListPartitionReassignmentsTopics46.keeps_holds, ListPartitionReassignmentsResponse.keeps_holds, OngoingTopicReassignment46.keeps_holds, OngoingPartitionReassignment46.keeps_holds, fun _ h => absurd h (by simp)⟩

end Kafka.Msg
