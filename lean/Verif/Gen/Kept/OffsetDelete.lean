import Verif.Message.KeptLemmas
import Verif.Gen.Proof.OffsetDelete
/-!
Generated by tools/gen_messages.py: what is in the OffsetDelete messages after an error.
-/
set_option linter.unusedVariables false
namespace Kafka.Msg

/-- message/messages.gen.go:11742-11749 `OffsetDeleteRequestPartition47.Decode`, with the receiver kept -/
def OffsetDeleteRequestPartition47.decodeK (_version : Int16) : KDec OffsetDeleteRequestPartition47 :=
    KDec.field Dec.int32 0 (fun t x => { t with PartitionIndex := x })

/-- Where the fields of `OffsetDeleteRequestPartition47` end. -/
def OffsetDeleteRequestPartition47.ends (_version : Int16) (t : OffsetDeleteRequestPartition47) : Nat → Nat :=
  Cut.ends 0 [Wire.int32 t.PartitionIndex]

/-- What is left of `t` if only its first `n` bytes are there. -/
def OffsetDeleteRequestPartition47.cut (version : Int16) (n : Nat) (t : OffsetDeleteRequestPartition47) : OffsetDeleteRequestPartition47 :=
  { PartitionIndex := Cut.field n (t.ends version 0) t.PartitionIndex 0 }

/-- The same after the first `k` statements of `Decode`. -/
def OffsetDeleteRequestPartition47.cutAt (version : Int16) (t : OffsetDeleteRequestPartition47) (k n : Nat) : OffsetDeleteRequestPartition47 :=
  { PartitionIndex := upto k 0 (Cut.field n (t.ends version 0) t.PartitionIndex 0) 0 }

/-- The first `k` fields of `y`, and zeros. -/
def OffsetDeleteRequestPartition47.first (k : Nat) (y : OffsetDeleteRequestPartition47) : OffsetDeleteRequestPartition47 :=
  { PartitionIndex := upto k 0 y.PartitionIndex 0 }

/-- `r` is a beginning of `y`, and zeros. -/
def OffsetDeleteRequestPartition47.Part (r y : OffsetDeleteRequestPartition47) : Prop :=
  (∃ k, k < 1 ∧ r = y.first k)

/-- `OffsetDeleteRequestPartition47` with its receiver kept. -/
def OffsetDeleteRequestPartition47.keeps : KeptMsg OffsetDeleteRequestPartition47.type := { decode := OffsetDeleteRequestPartition47.decodeK, cut := OffsetDeleteRequestPartition47.cut, Part := OffsetDeleteRequestPartition47.Part }

theorem OffsetDeleteRequestPartition47.sameK (version : Int16) : KStep (OffsetDeleteRequestPartition47.decodeK version) (OffsetDeleteRequestPartition47.decode version) :=
  KStep.field
theorem OffsetDeleteRequestPartition47.cutsK (version : Int16) (t : OffsetDeleteRequestPartition47) (h : t.Fits version) :
    Cuts (OffsetDeleteRequestPartition47.decodeK version) 0 (OffsetDeleteRequestPartition47.wire version t) (OffsetDeleteRequestPartition47.ends version t 0) (OffsetDeleteRequestPartition47.cutAt version t 0) (OffsetDeleteRequestPartition47.cutAt version t 1) :=
  (.field (reads_int32 t.PartitionIndex) (fun _ => rfl) (fun _ => rfl) : Cuts _ 0 _ (OffsetDeleteRequestPartition47.ends version t 0) (OffsetDeleteRequestPartition47.cutAt version t 0) (OffsetDeleteRequestPartition47.cutAt version t 1))
theorem OffsetDeleteRequestPartition47.partsK (version : Int16) : Parts (OffsetDeleteRequestPartition47.decodeK version) (OffsetDeleteRequestPartition47.first 0) (OffsetDeleteRequestPartition47.first 1) (fun r y => (r = OffsetDeleteRequestPartition47.first 0 y)) :=
  (.field Longer.int32 (fun _ => rfl) (fun _ _ => rfl) (fun _ _ => rfl) (fun _ => rfl) : Parts (KDec.field Dec.int32 0 (fun t x => { t with PartitionIndex := x })) (OffsetDeleteRequestPartition47.first 0) (OffsetDeleteRequestPartition47.first 1) (fun r y => r = OffsetDeleteRequestPartition47.first 0 y))
theorem OffsetDeleteRequestPartition47.filled (version : Int16) : FilledStep 4 4 (OffsetDeleteRequestPartition47.decode version) :=
  (FilledStep.field .int32).mono (by decide) (by decide)
theorem OffsetDeleteRequestPartition47.part_of (r y : OffsetDeleteRequestPartition47) (h : (r = OffsetDeleteRequestPartition47.first 0 y)) : OffsetDeleteRequestPartition47.Part r y :=
  match h with
    | h => ⟨0, by decide, h⟩
theorem OffsetDeleteRequestPartition47.keeps_holds : OffsetDeleteRequestPartition47.keeps.Holds OffsetDeleteRequestPartition47.layout :=
  KeptMsg.holds OffsetDeleteRequestPartition47.lawful OffsetDeleteRequestPartition47.sameK (stop := fun v t => OffsetDeleteRequestPartition47.ends v t 0) (c := fun v t => OffsetDeleteRequestPartition47.cutAt v t 0) (fun _ _ _ => rfl) OffsetDeleteRequestPartition47.cutsK (c0 := OffsetDeleteRequestPartition47.first 0) rfl OffsetDeleteRequestPartition47.partsK OffsetDeleteRequestPartition47.part_of OffsetDeleteRequestPartition47.filled (by decide) (by decide)

/-- message/messages.gen.go:11703-11723 `OffsetDeleteRequestTopic47.Decode`, with the receiver kept -/
def OffsetDeleteRequestTopic47.decodeK (version : Int16) : KDec OffsetDeleteRequestTopic47 :=
    KDec.field Dec.string [] (fun t x => { t with Name := x }) ;|>
    KDec.fieldStructs (OffsetDeleteRequestPartition47.decodeK version {}) {} (fun t x => { t with Partitions := x })

/-- Where the fields of `OffsetDeleteRequestTopic47` end. -/
def OffsetDeleteRequestTopic47.ends (version : Int16) (t : OffsetDeleteRequestTopic47) : Nat → Nat :=
  Cut.ends 0 [Wire.string t.Name,
    Wire.array (OffsetDeleteRequestPartition47.wire version) t.Partitions]

/-- What is left of `t` if only its first `n` bytes are there. -/
def OffsetDeleteRequestTopic47.cut (version : Int16) (n : Nat) (t : OffsetDeleteRequestTopic47) : OffsetDeleteRequestTopic47 :=
  { Name := Cut.field n (t.ends version 0) t.Name [],
    Partitions := Cut.array n (t.ends version 0) (OffsetDeleteRequestPartition47.wire version) (fun x => x.seen version {}) {} t.Partitions }

/-- The same after the first `k` statements of `Decode`. -/
def OffsetDeleteRequestTopic47.cutAt (version : Int16) (t : OffsetDeleteRequestTopic47) (k n : Nat) : OffsetDeleteRequestTopic47 :=
  { Name := upto k 0 (Cut.field n (t.ends version 0) t.Name []) [],
    Partitions := upto k 1 (Cut.array n (t.ends version 0) (OffsetDeleteRequestPartition47.wire version) (fun x => x.seen version {}) {} t.Partitions) none }

/-- The first `k` fields of `y`, and zeros. -/
def OffsetDeleteRequestTopic47.first (k : Nat) (y : OffsetDeleteRequestTopic47) : OffsetDeleteRequestTopic47 :=
  { Name := upto k 0 y.Name [],
    Partitions := upto k 1 y.Partitions none }

/-- `r` is a beginning of `y`, and zeros. -/
def OffsetDeleteRequestTopic47.Part (r y : OffsetDeleteRequestTopic47) : Prop :=
  (∃ k, k < 2 ∧ r = y.first k) ∨
    Cut.begun {} (fun t => t.Partitions) (fun t x => { t with Partitions := x }) (OffsetDeleteRequestTopic47.first 1) r y

/-- `OffsetDeleteRequestTopic47` with its receiver kept. -/
def OffsetDeleteRequestTopic47.keeps : KeptMsg OffsetDeleteRequestTopic47.type := { decode := OffsetDeleteRequestTopic47.decodeK, cut := OffsetDeleteRequestTopic47.cut, Part := OffsetDeleteRequestTopic47.Part }

theorem OffsetDeleteRequestTopic47.sameK (version : Int16) : KStep (OffsetDeleteRequestTopic47.decodeK version) (OffsetDeleteRequestTopic47.decode version) :=
  (KStep.field)
    |>.andThen (KStep.structs (fun _ => rfl) (OffsetDeleteRequestPartition47.sameK version {}))
theorem OffsetDeleteRequestTopic47.cutsK (version : Int16) (t : OffsetDeleteRequestTopic47) (h : t.Fits version) :
    Cuts (OffsetDeleteRequestTopic47.decodeK version) 0 (OffsetDeleteRequestTopic47.wire version t) (OffsetDeleteRequestTopic47.ends version t 1) (OffsetDeleteRequestTopic47.cutAt version t 0) (OffsetDeleteRequestTopic47.cutAt version t 2) :=
  (.field (reads_string h.Name) (fun _ => rfl) (fun _ => rfl) : Cuts _ 0 _ (OffsetDeleteRequestTopic47.ends version t 0) (OffsetDeleteRequestTopic47.cutAt version t 0) (OffsetDeleteRequestTopic47.cutAt version t 1))
    |>.andThen (.structs (OffsetDeleteRequestPartition47.sameK version {}) (fun x hx => OffsetDeleteRequestPartition47.reads version x hx {}) h.Partitions (fun _ => rfl) (fun _ => rfl) : Cuts _ (OffsetDeleteRequestTopic47.ends version t 0) _ (OffsetDeleteRequestTopic47.ends version t 1) (OffsetDeleteRequestTopic47.cutAt version t 1) (OffsetDeleteRequestTopic47.cutAt version t 2))
theorem OffsetDeleteRequestTopic47.partsK (version : Int16) : Parts (OffsetDeleteRequestTopic47.decodeK version) (OffsetDeleteRequestTopic47.first 0) (OffsetDeleteRequestTopic47.first 2) (fun r y => ((r = OffsetDeleteRequestTopic47.first 0 y) ∨ (r = OffsetDeleteRequestTopic47.first 1 y ∨ Cut.begun {} (fun t => t.Partitions) (fun t x => { t with Partitions := x }) (OffsetDeleteRequestTopic47.first 1) r y))) :=
  (.field Longer.string (fun _ => rfl) (fun _ _ => rfl) (fun _ _ => rfl) (fun _ => rfl) : Parts (KDec.field Dec.string [] (fun t x => { t with Name := x })) (OffsetDeleteRequestTopic47.first 0) (OffsetDeleteRequestTopic47.first 1) (fun r y => r = OffsetDeleteRequestTopic47.first 0 y))
    |>.andThen (.structs (get := fun (t : OffsetDeleteRequestTopic47) => t.Partitions) ((OffsetDeleteRequestPartition47.partsK version).longer {}) (fun _ => rfl) (fun _ => rfl) (fun _ _ => rfl) (fun _ _ => rfl) (fun _ _ => rfl) (fun _ => rfl) (fun _ => rfl) : Parts (KDec.fieldStructs (OffsetDeleteRequestPartition47.decodeK version {}) {} (fun t x => { t with Partitions := x })) (OffsetDeleteRequestTopic47.first 1) (OffsetDeleteRequestTopic47.first 2) (fun r y => r = OffsetDeleteRequestTopic47.first 1 y ∨ Cut.begun {} (fun t => t.Partitions) (fun t x => { t with Partitions := x }) (OffsetDeleteRequestTopic47.first 1) r y))
theorem OffsetDeleteRequestTopic47.filled (version : Int16) : FilledStep 6 8589934600 (OffsetDeleteRequestTopic47.decode version) :=
  ((FilledStep.field .string)
    |>.andThen (FilledStep.structs (OffsetDeleteRequestPartition47.filled version {}))).mono (by decide) (by decide)
theorem OffsetDeleteRequestTopic47.part_of (r y : OffsetDeleteRequestTopic47) (h : ((r = OffsetDeleteRequestTopic47.first 0 y) ∨ (r = OffsetDeleteRequestTopic47.first 1 y ∨ Cut.begun {} (fun t => t.Partitions) (fun t x => { t with Partitions := x }) (OffsetDeleteRequestTopic47.first 1) r y))) : OffsetDeleteRequestTopic47.Part r y :=
  match h with
    | (.inl h) => .inl ⟨0, by decide, h⟩
    | (.inr (.inl h)) => .inl ⟨1, by decide, h⟩
    | (.inr (.inr h)) => (.inr h)
theorem OffsetDeleteRequestTopic47.keeps_holds : OffsetDeleteRequestTopic47.keeps.Holds OffsetDeleteRequestTopic47.layout :=
  KeptMsg.holds OffsetDeleteRequestTopic47.lawful OffsetDeleteRequestTopic47.sameK (stop := fun v t => OffsetDeleteRequestTopic47.ends v t 1) (c := fun v t => OffsetDeleteRequestTopic47.cutAt v t 0) (fun _ _ _ => rfl) OffsetDeleteRequestTopic47.cutsK (c0 := OffsetDeleteRequestTopic47.first 0) rfl OffsetDeleteRequestTopic47.partsK OffsetDeleteRequestTopic47.part_of OffsetDeleteRequestTopic47.filled (by decide) (by decide)

/-- message/messages.gen.go:11653-11673 `OffsetDeleteRequest.Decode`, with the receiver kept -/
def OffsetDeleteRequest.decodeK (version : Int16) : KDec OffsetDeleteRequest :=
    KDec.field Dec.string [] (fun t x => { t with GroupId := x }) ;|>
    KDec.fieldStructs (OffsetDeleteRequestTopic47.decodeK version {}) {} (fun t x => { t with Topics := x })

/-- Where the fields of `OffsetDeleteRequest` end. -/
def OffsetDeleteRequest.ends (version : Int16) (t : OffsetDeleteRequest) : Nat → Nat :=
  Cut.ends 0 [Wire.string t.GroupId,
    Wire.array (OffsetDeleteRequestTopic47.wire version) t.Topics]

/-- What is left of `t` if only its first `n` bytes are there. -/
def OffsetDeleteRequest.cut (version : Int16) (n : Nat) (t : OffsetDeleteRequest) : OffsetDeleteRequest :=
  { GroupId := Cut.field n (t.ends version 0) t.GroupId [],
    Topics := Cut.array n (t.ends version 0) (OffsetDeleteRequestTopic47.wire version) (fun x => x.seen version {}) {} t.Topics }

/-- The same after the first `k` statements of `Decode`. -/
def OffsetDeleteRequest.cutAt (version : Int16) (t : OffsetDeleteRequest) (k n : Nat) : OffsetDeleteRequest :=
  { GroupId := upto k 0 (Cut.field n (t.ends version 0) t.GroupId []) [],
    Topics := upto k 1 (Cut.array n (t.ends version 0) (OffsetDeleteRequestTopic47.wire version) (fun x => x.seen version {}) {} t.Topics) none }

/-- The first `k` fields of `y`, and zeros. -/
def OffsetDeleteRequest.first (k : Nat) (y : OffsetDeleteRequest) : OffsetDeleteRequest :=
  { GroupId := upto k 0 y.GroupId [],
    Topics := upto k 1 y.Topics none }

/-- `r` is a beginning of `y`, and zeros. -/
def OffsetDeleteRequest.Part (r y : OffsetDeleteRequest) : Prop :=
  (∃ k, k < 2 ∧ r = y.first k) ∨
    Cut.begun {} (fun t => t.Topics) (fun t x => { t with Topics := x }) (OffsetDeleteRequest.first 1) r y

/-- `OffsetDeleteRequest` with its receiver kept. -/
def OffsetDeleteRequest.keeps : KeptMsg OffsetDeleteRequest.type := { decode := OffsetDeleteRequest.decodeK, cut := OffsetDeleteRequest.cut, Part := OffsetDeleteRequest.Part }

theorem OffsetDeleteRequest.sameK (version : Int16) : KStep (OffsetDeleteRequest.decodeK version) (OffsetDeleteRequest.decode version) :=
  (KStep.field)
    |>.andThen (KStep.structs (fun _ => rfl) (OffsetDeleteRequestTopic47.sameK version {}))
theorem OffsetDeleteRequest.cutsK (version : Int16) (t : OffsetDeleteRequest) (h : t.Fits version) :
    Cuts (OffsetDeleteRequest.decodeK version) 0 (OffsetDeleteRequest.wire version t) (OffsetDeleteRequest.ends version t 1) (OffsetDeleteRequest.cutAt version t 0) (OffsetDeleteRequest.cutAt version t 2) :=
  (.field (reads_string h.GroupId) (fun _ => rfl) (fun _ => rfl) : Cuts _ 0 _ (OffsetDeleteRequest.ends version t 0) (OffsetDeleteRequest.cutAt version t 0) (OffsetDeleteRequest.cutAt version t 1))
    |>.andThen (.structs (OffsetDeleteRequestTopic47.sameK version {}) (fun x hx => OffsetDeleteRequestTopic47.reads version x hx {}) h.Topics (fun _ => rfl) (fun _ => rfl) : Cuts _ (OffsetDeleteRequest.ends version t 0) _ (OffsetDeleteRequest.ends version t 1) (OffsetDeleteRequest.cutAt version t 1) (OffsetDeleteRequest.cutAt version t 2))
theorem OffsetDeleteRequest.partsK (version : Int16) : Parts (OffsetDeleteRequest.decodeK version) (OffsetDeleteRequest.first 0) (OffsetDeleteRequest.first 2) (fun r y => ((r = OffsetDeleteRequest.first 0 y) ∨ (r = OffsetDeleteRequest.first 1 y ∨ Cut.begun {} (fun t => t.Topics) (fun t x => { t with Topics := x }) (OffsetDeleteRequest.first 1) r y))) :=
  (.field Longer.string (fun _ => rfl) (fun _ _ => rfl) (fun _ _ => rfl) (fun _ => rfl) : Parts (KDec.field Dec.string [] (fun t x => { t with GroupId := x })) (OffsetDeleteRequest.first 0) (OffsetDeleteRequest.first 1) (fun r y => r = OffsetDeleteRequest.first 0 y))
    |>.andThen (.structs (get := fun (t : OffsetDeleteRequest) => t.Topics) ((OffsetDeleteRequestTopic47.partsK version).longer {}) (fun _ => rfl) (fun _ => rfl) (fun _ _ => rfl) (fun _ _ => rfl) (fun _ _ => rfl) (fun _ => rfl) (fun _ => rfl) : Parts (KDec.fieldStructs (OffsetDeleteRequestTopic47.decodeK version {}) {} (fun t x => { t with Topics := x })) (OffsetDeleteRequest.first 1) (OffsetDeleteRequest.first 2) (fun r y => r = OffsetDeleteRequest.first 1 y ∨ Cut.begun {} (fun t => t.Topics) (fun t x => { t with Topics := x }) (OffsetDeleteRequest.first 1) r y))
theorem OffsetDeleteRequest.filled (version : Int16) : FilledStep 6 21474836492 (OffsetDeleteRequest.decode version) :=
  ((FilledStep.field .string)
    |>.andThen (FilledStep.structs (OffsetDeleteRequestTopic47.filled version {}))).mono (by decide) (by decide)
theorem OffsetDeleteRequest.part_of (r y : OffsetDeleteRequest) (h : ((r = OffsetDeleteRequest.first 0 y) ∨ (r = OffsetDeleteRequest.first 1 y ∨ Cut.begun {} (fun t => t.Topics) (fun t x => { t with Topics := x }) (OffsetDeleteRequest.first 1) r y))) : OffsetDeleteRequest.Part r y :=
  match h with
    | (.inl h) => .inl ⟨0, by decide, h⟩
    | (.inr (.inl h)) => .inl ⟨1, by decide, h⟩
    | (.inr (.inr h)) => (.inr h)
theorem OffsetDeleteRequest.keeps_holds : OffsetDeleteRequest.keeps.Holds OffsetDeleteRequest.layout :=
  KeptMsg.holds OffsetDeleteRequest.lawful OffsetDeleteRequest.sameK (stop := fun v t => OffsetDeleteRequest.ends v t 1) (c := fun v t => OffsetDeleteRequest.cutAt v t 0) (fun _ _ _ => rfl) OffsetDeleteRequest.cutsK (c0 := OffsetDeleteRequest.first 0) rfl OffsetDeleteRequest.partsK OffsetDeleteRequest.part_of OffsetDeleteRequest.filled (by decide) (by decide)

/-- message/messages.gen.go:11879-11890 `OffsetDeleteResponsePartition47.Decode`, with the receiver kept -/
def OffsetDeleteResponsePartition47.decodeK (_version : Int16) : KDec OffsetDeleteResponsePartition47 :=
    KDec.field Dec.int32 0 (fun t x => { t with PartitionIndex := x }) ;|>
    KDec.field Dec.int16 0 (fun t x => { t with ErrorCode := x })

/-- Where the fields of `OffsetDeleteResponsePartition47` end. -/
def OffsetDeleteResponsePartition47.ends (_version : Int16) (t : OffsetDeleteResponsePartition47) : Nat → Nat :=
  Cut.ends 0 [Wire.int32 t.PartitionIndex,
    Wire.int16 t.ErrorCode]

/-- What is left of `t` if only its first `n` bytes are there. -/
def OffsetDeleteResponsePartition47.cut (version : Int16) (n : Nat) (t : OffsetDeleteResponsePartition47) : OffsetDeleteResponsePartition47 :=
  { PartitionIndex := Cut.field n (t.ends version 0) t.PartitionIndex 0,
    ErrorCode := Cut.field n (t.ends version 1) t.ErrorCode 0 }

/-- The same after the first `k` statements of `Decode`. -/
def OffsetDeleteResponsePartition47.cutAt (version : Int16) (t : OffsetDeleteResponsePartition47) (k n : Nat) : OffsetDeleteResponsePartition47 :=
  { PartitionIndex := upto k 0 (Cut.field n (t.ends version 0) t.PartitionIndex 0) 0,
    ErrorCode := upto k 1 (Cut.field n (t.ends version 1) t.ErrorCode 0) 0 }

/-- The first `k` fields of `y`, and zeros. -/
def OffsetDeleteResponsePartition47.first (k : Nat) (y : OffsetDeleteResponsePartition47) : OffsetDeleteResponsePartition47 :=
  { PartitionIndex := upto k 0 y.PartitionIndex 0,
    ErrorCode := upto k 1 y.ErrorCode 0 }

/-- `r` is a beginning of `y`, and zeros. -/
def OffsetDeleteResponsePartition47.Part (r y : OffsetDeleteResponsePartition47) : Prop :=
  (∃ k, k < 2 ∧ r = y.first k)

/-- `OffsetDeleteResponsePartition47` with its receiver kept. -/
def OffsetDeleteResponsePartition47.keeps : KeptMsg OffsetDeleteResponsePartition47.type := { decode := OffsetDeleteResponsePartition47.decodeK, cut := OffsetDeleteResponsePartition47.cut, Part := OffsetDeleteResponsePartition47.Part }

theorem OffsetDeleteResponsePartition47.sameK (version : Int16) : KStep (OffsetDeleteResponsePartition47.decodeK version) (OffsetDeleteResponsePartition47.decode version) :=
  (KStep.field)
    |>.andThen (KStep.field)
theorem OffsetDeleteResponsePartition47.cutsK (version : Int16) (t : OffsetDeleteResponsePartition47) (h : t.Fits version) :
    Cuts (OffsetDeleteResponsePartition47.decodeK version) 0 (OffsetDeleteResponsePartition47.wire version t) (OffsetDeleteResponsePartition47.ends version t 1) (OffsetDeleteResponsePartition47.cutAt version t 0) (OffsetDeleteResponsePartition47.cutAt version t 2) :=
  (.field (reads_int32 t.PartitionIndex) (fun _ => rfl) (fun _ => rfl) : Cuts _ 0 _ (OffsetDeleteResponsePartition47.ends version t 0) (OffsetDeleteResponsePartition47.cutAt version t 0) (OffsetDeleteResponsePartition47.cutAt version t 1))
    |>.andThen (.field (reads_int16 t.ErrorCode) (fun _ => rfl) (fun _ => rfl) : Cuts _ (OffsetDeleteResponsePartition47.ends version t 0) _ (OffsetDeleteResponsePartition47.ends version t 1) (OffsetDeleteResponsePartition47.cutAt version t 1) (OffsetDeleteResponsePartition47.cutAt version t 2))
theorem OffsetDeleteResponsePartition47.partsK (version : Int16) : Parts (OffsetDeleteResponsePartition47.decodeK version) (OffsetDeleteResponsePartition47.first 0) (OffsetDeleteResponsePartition47.first 2) (fun r y => ((r = OffsetDeleteResponsePartition47.first 0 y) ∨ (r = OffsetDeleteResponsePartition47.first 1 y))) :=
  (.field Longer.int32 (fun _ => rfl) (fun _ _ => rfl) (fun _ _ => rfl) (fun _ => rfl) : Parts (KDec.field Dec.int32 0 (fun t x => { t with PartitionIndex := x })) (OffsetDeleteResponsePartition47.first 0) (OffsetDeleteResponsePartition47.first 1) (fun r y => r = OffsetDeleteResponsePartition47.first 0 y))
    |>.andThen (.field Longer.int16 (fun _ => rfl) (fun _ _ => rfl) (fun _ _ => rfl) (fun _ => rfl) : Parts (KDec.field Dec.int16 0 (fun t x => { t with ErrorCode := x })) (OffsetDeleteResponsePartition47.first 1) (OffsetDeleteResponsePartition47.first 2) (fun r y => r = OffsetDeleteResponsePartition47.first 1 y))
theorem OffsetDeleteResponsePartition47.filled (version : Int16) : FilledStep 6 6 (OffsetDeleteResponsePartition47.decode version) :=
  ((FilledStep.field .int32)
    |>.andThen (FilledStep.field .int16)).mono (by decide) (by decide)
theorem OffsetDeleteResponsePartition47.part_of (r y : OffsetDeleteResponsePartition47) (h : ((r = OffsetDeleteResponsePartition47.first 0 y) ∨ (r = OffsetDeleteResponsePartition47.first 1 y))) : OffsetDeleteResponsePartition47.Part r y :=
  match h with
    | (.inl h) => ⟨0, by decide, h⟩
    | (.inr h) => ⟨1, by decide, h⟩
theorem OffsetDeleteResponsePartition47.keeps_holds : OffsetDeleteResponsePartition47.keeps.Holds OffsetDeleteResponsePartition47.layout :=
  KeptMsg.holds OffsetDeleteResponsePartition47.lawful OffsetDeleteResponsePartition47.sameK (stop := fun v t => OffsetDeleteResponsePartition47.ends v t 1) (c := fun v t => OffsetDeleteResponsePartition47.cutAt v t 0) (fun _ _ _ => rfl) OffsetDeleteResponsePartition47.cutsK (c0 := OffsetDeleteResponsePartition47.first 0) rfl OffsetDeleteResponsePartition47.partsK OffsetDeleteResponsePartition47.part_of OffsetDeleteResponsePartition47.filled (by decide) (by decide)

/-- message/messages.gen.go:11837-11857 `OffsetDeleteResponseTopic47.Decode`, with the receiver kept -/
def OffsetDeleteResponseTopic47.decodeK (version : Int16) : KDec OffsetDeleteResponseTopic47 :=
    KDec.field Dec.string [] (fun t x => { t with Name := x }) ;|>
    KDec.fieldStructs (OffsetDeleteResponsePartition47.decodeK version {}) {} (fun t x => { t with Partitions := x })

/-- Where the fields of `OffsetDeleteResponseTopic47` end. -/
def OffsetDeleteResponseTopic47.ends (version : Int16) (t : OffsetDeleteResponseTopic47) : Nat → Nat :=
  Cut.ends 0 [Wire.string t.Name,
    Wire.array (OffsetDeleteResponsePartition47.wire version) t.Partitions]

/-- What is left of `t` if only its first `n` bytes are there. -/
def OffsetDeleteResponseTopic47.cut (version : Int16) (n : Nat) (t : OffsetDeleteResponseTopic47) : OffsetDeleteResponseTopic47 :=
  { Name := Cut.field n (t.ends version 0) t.Name [],
    Partitions := Cut.array n (t.ends version 0) (OffsetDeleteResponsePartition47.wire version) (fun x => x.seen version {}) {} t.Partitions }

/-- The same after the first `k` statements of `Decode`. -/
def OffsetDeleteResponseTopic47.cutAt (version : Int16) (t : OffsetDeleteResponseTopic47) (k n : Nat) : OffsetDeleteResponseTopic47 :=
  { Name := upto k 0 (Cut.field n (t.ends version 0) t.Name []) [],
    Partitions := upto k 1 (Cut.array n (t.ends version 0) (OffsetDeleteResponsePartition47.wire version) (fun x => x.seen version {}) {} t.Partitions) none }

/-- The first `k` fields of `y`, and zeros. -/
def OffsetDeleteResponseTopic47.first (k : Nat) (y : OffsetDeleteResponseTopic47) : OffsetDeleteResponseTopic47 :=
  { Name := upto k 0 y.Name [],
    Partitions := upto k 1 y.Partitions none }

/-- `r` is a beginning of `y`, and zeros. -/
def OffsetDeleteResponseTopic47.Part (r y : OffsetDeleteResponseTopic47) : Prop :=
  (∃ k, k < 2 ∧ r = y.first k) ∨
    Cut.begun {} (fun t => t.Partitions) (fun t x => { t with Partitions := x }) (OffsetDeleteResponseTopic47.first 1) r y

/-- `OffsetDeleteResponseTopic47` with its receiver kept. -/
def OffsetDeleteResponseTopic47.keeps : KeptMsg OffsetDeleteResponseTopic47.type := { decode := OffsetDeleteResponseTopic47.decodeK, cut := OffsetDeleteResponseTopic47.cut, Part := OffsetDeleteResponseTopic47.Part }

theorem OffsetDeleteResponseTopic47.sameK (version : Int16) : KStep (OffsetDeleteResponseTopic47.decodeK version) (OffsetDeleteResponseTopic47.decode version) :=
  (KStep.field)
    |>.andThen (KStep.structs (fun _ => rfl) (OffsetDeleteResponsePartition47.sameK version {}))
theorem OffsetDeleteResponseTopic47.cutsK (version : Int16) (t : OffsetDeleteResponseTopic47) (h : t.Fits version) :
    Cuts (OffsetDeleteResponseTopic47.decodeK version) 0 (OffsetDeleteResponseTopic47.wire version t) (OffsetDeleteResponseTopic47.ends version t 1) (OffsetDeleteResponseTopic47.cutAt version t 0) (OffsetDeleteResponseTopic47.cutAt version t 2) :=
  (.field (reads_string h.Name) (fun _ => rfl) (fun _ => rfl) : Cuts _ 0 _ (OffsetDeleteResponseTopic47.ends version t 0) (OffsetDeleteResponseTopic47.cutAt version t 0) (OffsetDeleteResponseTopic47.cutAt version t 1))
    |>.andThen (.structs (OffsetDeleteResponsePartition47.sameK version {}) (fun x hx => OffsetDeleteResponsePartition47.reads version x hx {}) h.Partitions (fun _ => rfl) (fun _ => rfl) : Cuts _ (OffsetDeleteResponseTopic47.ends version t 0) _ (OffsetDeleteResponseTopic47.ends version t 1) (OffsetDeleteResponseTopic47.cutAt version t 1) (OffsetDeleteResponseTopic47.cutAt version t 2))
theorem OffsetDeleteResponseTopic47.partsK (version : Int16) : Parts (OffsetDeleteResponseTopic47.decodeK version) (OffsetDeleteResponseTopic47.first 0) (OffsetDeleteResponseTopic47.first 2) (fun r y => ((r = OffsetDeleteResponseTopic47.first 0 y) ∨ (r = OffsetDeleteResponseTopic47.first 1 y ∨ Cut.begun {} (fun t => t.Partitions) (fun t x => { t with Partitions := x }) (OffsetDeleteResponseTopic47.first 1) r y))) :=
  (.field Longer.string (fun _ => rfl) (fun _ _ => rfl) (fun _ _ => rfl) (fun _ => rfl) : Parts (KDec.field Dec.string [] (fun t x => { t with Name := x })) (OffsetDeleteResponseTopic47.first 0) (OffsetDeleteResponseTopic47.first 1) (fun r y => r = OffsetDeleteResponseTopic47.first 0 y))
    |>.andThen (.structs (get := fun (t : OffsetDeleteResponseTopic47) => t.Partitions) ((OffsetDeleteResponsePartition47.partsK version).longer {}) (fun _ => rfl) (fun _ => rfl) (fun _ _ => rfl) (fun _ _ => rfl) (fun _ _ => rfl) (fun _ => rfl) (fun _ => rfl) : Parts (KDec.fieldStructs (OffsetDeleteResponsePartition47.decodeK version {}) {} (fun t x => { t with Partitions := x })) (OffsetDeleteResponseTopic47.first 1) (OffsetDeleteResponseTopic47.first 2) (fun r y => r = OffsetDeleteResponseTopic47.first 1 y ∨ Cut.begun {} (fun t => t.Partitions) (fun t x => { t with Partitions := x }) (OffsetDeleteResponseTopic47.first 1) r y))
theorem OffsetDeleteResponseTopic47.filled (version : Int16) : FilledStep 6 12884901898 (OffsetDeleteResponseTopic47.decode version) :=
  ((FilledStep.field .string)
    |>.andThen (FilledStep.structs (OffsetDeleteResponsePartition47.filled version {}))).mono (by decide) (by decide)
theorem OffsetDeleteResponseTopic47.part_of (r y : OffsetDeleteResponseTopic47) (h : ((r = OffsetDeleteResponseTopic47.first 0 y) ∨ (r = OffsetDeleteResponseTopic47.first 1 y ∨ Cut.begun {} (fun t => t.Partitions) (fun t x => { t with Partitions := x }) (OffsetDeleteResponseTopic47.first 1) r y))) : OffsetDeleteResponseTopic47.Part r y :=
  match h with
    | (.inl h) => .inl ⟨0, by decide, h⟩
    | (.inr (.inl h)) => .inl ⟨1, by decide, h⟩
    | (.inr (.inr h)) => (.inr h)
theorem OffsetDeleteResponseTopic47.keeps_holds : OffsetDeleteResponseTopic47.keeps.Holds OffsetDeleteResponseTopic47.layout :=
  KeptMsg.holds OffsetDeleteResponseTopic47.lawful OffsetDeleteResponseTopic47.sameK (stop := fun v t => OffsetDeleteResponseTopic47.ends v t 1) (c := fun v t => OffsetDeleteResponseTopic47.cutAt v t 0) (fun _ _ _ => rfl) OffsetDeleteResponseTopic47.cutsK (c0 := OffsetDeleteResponseTopic47.first 0) rfl OffsetDeleteResponseTopic47.partsK OffsetDeleteResponseTopic47.part_of OffsetDeleteResponseTopic47.filled (by decide) (by decide)

/-- message/messages.gen.go:11783-11807 `OffsetDeleteResponse.Decode`, with the receiver kept -/
def OffsetDeleteResponse.decodeK (version : Int16) : KDec OffsetDeleteResponse :=
    KDec.field Dec.int16 0 (fun t x => { t with ErrorCode := x }) ;|>
    KDec.field Dec.int32 0 (fun t x => { t with ThrottleTimeMs := x }) ;|>
    KDec.fieldStructs (OffsetDeleteResponseTopic47.decodeK version {}) {} (fun t x => { t with Topics := x })

/-- Where the fields of `OffsetDeleteResponse` end. -/
def OffsetDeleteResponse.ends (version : Int16) (t : OffsetDeleteResponse) : Nat → Nat :=
  Cut.ends 0 [Wire.int16 t.ErrorCode,
    Wire.int32 t.ThrottleTimeMs,
    Wire.array (OffsetDeleteResponseTopic47.wire version) t.Topics]

/-- What is left of `t` if only its first `n` bytes are there. -/
def OffsetDeleteResponse.cut (version : Int16) (n : Nat) (t : OffsetDeleteResponse) : OffsetDeleteResponse :=
  { ErrorCode := Cut.field n (t.ends version 0) t.ErrorCode 0,
    ThrottleTimeMs := Cut.field n (t.ends version 1) t.ThrottleTimeMs 0,
    Topics := Cut.array n (t.ends version 1) (OffsetDeleteResponseTopic47.wire version) (fun x => x.seen version {}) {} t.Topics }

/-- The same after the first `k` statements of `Decode`. -/
def OffsetDeleteResponse.cutAt (version : Int16) (t : OffsetDeleteResponse) (k n : Nat) : OffsetDeleteResponse :=
  { ErrorCode := upto k 0 (Cut.field n (t.ends version 0) t.ErrorCode 0) 0,
    ThrottleTimeMs := upto k 1 (Cut.field n (t.ends version 1) t.ThrottleTimeMs 0) 0,
    Topics := upto k 2 (Cut.array n (t.ends version 1) (OffsetDeleteResponseTopic47.wire version) (fun x => x.seen version {}) {} t.Topics) none }

/-- The first `k` fields of `y`, and zeros. -/
def OffsetDeleteResponse.first (k : Nat) (y : OffsetDeleteResponse) : OffsetDeleteResponse :=
  { ErrorCode := upto k 0 y.ErrorCode 0,
    ThrottleTimeMs := upto k 1 y.ThrottleTimeMs 0,
    Topics := upto k 2 y.Topics none }

/-- `r` is a beginning of `y`, and zeros. -/
def OffsetDeleteResponse.Part (r y : OffsetDeleteResponse) : Prop :=
  (∃ k, k < 3 ∧ r = y.first k) ∨
    Cut.begun {} (fun t => t.Topics) (fun t x => { t with Topics := x }) (OffsetDeleteResponse.first 2) r y

/-- `OffsetDeleteResponse` with its receiver kept. -/
def OffsetDeleteResponse.keeps : KeptMsg OffsetDeleteResponse.type := { decode := OffsetDeleteResponse.decodeK, cut := OffsetDeleteResponse.cut, Part := OffsetDeleteResponse.Part }

theorem OffsetDeleteResponse.sameK (version : Int16) : KStep (OffsetDeleteResponse.decodeK version) (OffsetDeleteResponse.decode version) :=
  (KStep.field)
    |>.andThen (KStep.field)
    |>.andThen (KStep.structs (fun _ => rfl) (OffsetDeleteResponseTopic47.sameK version {}))
theorem OffsetDeleteResponse.cutsK (version : Int16) (t : OffsetDeleteResponse) (h : t.Fits version) :
    Cuts (OffsetDeleteResponse.decodeK version) 0 (OffsetDeleteResponse.wire version t) (OffsetDeleteResponse.ends version t 2) (OffsetDeleteResponse.cutAt version t 0) (OffsetDeleteResponse.cutAt version t 3) :=
  (.field (reads_int16 t.ErrorCode) (fun _ => rfl) (fun _ => rfl) : Cuts _ 0 _ (OffsetDeleteResponse.ends version t 0) (OffsetDeleteResponse.cutAt version t 0) (OffsetDeleteResponse.cutAt version t 1))
    |>.andThen (.field (reads_int32 t.ThrottleTimeMs) (fun _ => rfl) (fun _ => rfl) : Cuts _ (OffsetDeleteResponse.ends version t 0) _ (OffsetDeleteResponse.ends version t 1) (OffsetDeleteResponse.cutAt version t 1) (OffsetDeleteResponse.cutAt version t 2))
    |>.andThen (.structs (OffsetDeleteResponseTopic47.sameK version {}) (fun x hx => OffsetDeleteResponseTopic47.reads version x hx {}) h.Topics (fun _ => rfl) (fun _ => rfl) : Cuts _ (OffsetDeleteResponse.ends version t 1) _ (OffsetDeleteResponse.ends version t 2) (OffsetDeleteResponse.cutAt version t 2) (OffsetDeleteResponse.cutAt version t 3))
theorem OffsetDeleteResponse.partsK (version : Int16) : Parts (OffsetDeleteResponse.decodeK version) (OffsetDeleteResponse.first 0) (OffsetDeleteResponse.first 3) (fun r y => (((r = OffsetDeleteResponse.first 0 y) ∨ (r = OffsetDeleteResponse.first 1 y)) ∨ (r = OffsetDeleteResponse.first 2 y ∨ Cut.begun {} (fun t => t.Topics) (fun t x => { t with Topics := x }) (OffsetDeleteResponse.first 2) r y))) :=
  (.field Longer.int16 (fun _ => rfl) (fun _ _ => rfl) (fun _ _ => rfl) (fun _ => rfl) : Parts (KDec.field Dec.int16 0 (fun t x => { t with ErrorCode := x })) (OffsetDeleteResponse.first 0) (OffsetDeleteResponse.first 1) (fun r y => r = OffsetDeleteResponse.first 0 y))
    |>.andThen (.field Longer.int32 (fun _ => rfl) (fun _ _ => rfl) (fun _ _ => rfl) (fun _ => rfl) : Parts (KDec.field Dec.int32 0 (fun t x => { t with ThrottleTimeMs := x })) (OffsetDeleteResponse.first 1) (OffsetDeleteResponse.first 2) (fun r y => r = OffsetDeleteResponse.first 1 y))
    |>.andThen (.structs (get := fun (t : OffsetDeleteResponse) => t.Topics) ((OffsetDeleteResponseTopic47.partsK version).longer {}) (fun _ => rfl) (fun _ => rfl) (fun _ _ => rfl) (fun _ _ => rfl) (fun _ _ => rfl) (fun _ => rfl) (fun _ => rfl) : Parts (KDec.fieldStructs (OffsetDeleteResponseTopic47.decodeK version {}) {} (fun t x => { t with Topics := x })) (OffsetDeleteResponse.first 2) (OffsetDeleteResponse.first 3) (fun r y => r = OffsetDeleteResponse.first 2 y ∨ Cut.begun {} (fun t => t.Topics) (fun t x => { t with Topics := x }) (OffsetDeleteResponse.first 2) r y))
theorem OffsetDeleteResponse.filled (version : Int16) : FilledStep 10 25769803790 (OffsetDeleteResponse.decode version) :=
  ((FilledStep.field .int16)
    |>.andThen (FilledStep.field .int32)
    |>.andThen (FilledStep.structs (OffsetDeleteResponseTopic47.filled version {}))).mono (by decide) (by decide)
theorem OffsetDeleteResponse.part_of (r y : OffsetDeleteResponse) (h : (((r = OffsetDeleteResponse.first 0 y) ∨ (r = OffsetDeleteResponse.first 1 y)) ∨ (r = OffsetDeleteResponse.first 2 y ∨ Cut.begun {} (fun t => t.Topics) (fun t x => { t with Topics := x }) (OffsetDeleteResponse.first 2) r y))) : OffsetDeleteResponse.Part r y :=
  match h with
    | (.inl (.inl h)) => .inl ⟨0, by decide, h⟩
    | (.inl (.inr h)) => .inl ⟨1, by decide, h⟩
    | (.inr (.inl h)) => .inl ⟨2, by decide, h⟩
    | (.inr (.inr h)) => (.inr h)
theorem OffsetDeleteResponse.keeps_holds : OffsetDeleteResponse.keeps.Holds OffsetDeleteResponse.layout :=
  KeptMsg.holds OffsetDeleteResponse.lawful OffsetDeleteResponse.sameK (stop := fun v t => OffsetDeleteResponse.ends v t 2) (c := fun v t => OffsetDeleteResponse.cutAt v t 0) (fun _ _ _ => rfl) OffsetDeleteResponse.cutsK (c0 := OffsetDeleteResponse.first 0) rfl OffsetDeleteResponse.partsK OffsetDeleteResponse.part_of OffsetDeleteResponse.filled (by decide) (by decide)

/-- The structures of the OffsetDelete messages. -/
def keptOffsetDelete : List (Σ (M : MsgType) (_ : Layout M), KeptMsg M) :=
  [⟨OffsetDeleteRequest.type, OffsetDeleteRequest.layout, OffsetDeleteRequest.keeps⟩,
   ⟨OffsetDeleteRequestTopic47.type, OffsetDeleteRequestTopic47.layout, OffsetDeleteRequestTopic47.keeps⟩,
   ⟨OffsetDeleteRequestPartition47.type, OffsetDeleteRequestPartition47.layout, OffsetDeleteRequestPartition47.keeps⟩,
   ⟨OffsetDeleteResponse.type, OffsetDeleteResponse.layout, OffsetDeleteResponse.keeps⟩,
   ⟨OffsetDeleteResponseTopic47.type, OffsetDeleteResponseTopic47.layout, OffsetDeleteResponseTopic47.keeps⟩,
   ⟨OffsetDeleteResponsePartition47.type, OffsetDeleteResponsePartition47.layout, OffsetDeleteResponsePartition47.keeps⟩]
theorem keptOffsetDelete_holds : ∀ p ∈ keptOffsetDelete, p.2.2.Holds p.2.1 := by
  unfold keptOffsetDelete
  simp only [List.forall_mem_cons]
  exact ⟨OffsetDeleteRequest.keeps_holds, OffsetDeleteRequestTopic47.keeps_holds, OffsetDeleteRequestPartition47.keeps_holds, OffsetDeleteResponse.keeps_holds, OffsetDeleteResponseTopic47.keeps_holds, OffsetDeleteResponsePartition47.keeps_holds, fun _ h => absurd h (by simp)⟩

end Kafka.Msg
