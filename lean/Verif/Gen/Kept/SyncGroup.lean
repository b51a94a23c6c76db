import Verif.Message.KeptLemmas
import Verif.Gen.Proof.SyncGroup
/-!
Generated by tools/gen_messages.py: what is in the SyncGroup messages after an error.
-/
set_option linter.unusedVariables false
namespace Kafka.Msg

/-- message/messages.gen.go:4715-4726 `SyncGroupRequestAssignment14.Decode`, with the receiver kept -/
def SyncGroupRequestAssignment14.decodeK (_version : Int16) : KDec SyncGroupRequestAssignment14 :=
    KDec.field Dec.string [] (fun t x => { t with MemberId := x }) ;|>
    KDec.field Dec.bytes none (fun t x => { t with Assignment := x })

/-- Where the fields of `SyncGroupRequestAssignment14` end. -/
def SyncGroupRequestAssignment14.ends (_version : Int16) (t : SyncGroupRequestAssignment14) : Nat → Nat :=
  Cut.ends 0 [Wire.string t.MemberId,
    Wire.bytes t.Assignment]

/-- What is left of `t` if only its first `n` bytes are there. -/
def SyncGroupRequestAssignment14.cut (version : Int16) (n : Nat) (t : SyncGroupRequestAssignment14) : SyncGroupRequestAssignment14 :=
  { MemberId := Cut.field n (t.ends version 0) t.MemberId [],
    Assignment := Cut.field n (t.ends version 1) t.Assignment.nonNil none }

/-- The same after the first `k` statements of `Decode`. -/
def SyncGroupRequestAssignment14.cutAt (version : Int16) (t : SyncGroupRequestAssignment14) (k n : Nat) : SyncGroupRequestAssignment14 :=
  { MemberId := upto k 0 (Cut.field n (t.ends version 0) t.MemberId []) [],
    Assignment := upto k 1 (Cut.field n (t.ends version 1) t.Assignment.nonNil none) none }

/-- The first `k` fields of `y`, and zeros. -/
def SyncGroupRequestAssignment14.first (k : Nat) (y : SyncGroupRequestAssignment14) : SyncGroupRequestAssignment14 :=
  { MemberId := upto k 0 y.MemberId [],
    Assignment := upto k 1 y.Assignment none }

/-- `r` is a beginning of `y`, and zeros. -/
def SyncGroupRequestAssignment14.Part (r y : SyncGroupRequestAssignment14) : Prop :=
  (∃ k, k < 2 ∧ r = y.first k)

/-- `SyncGroupRequestAssignment14` with its receiver kept. -/
def SyncGroupRequestAssignment14.keeps : KeptMsg SyncGroupRequestAssignment14.type := { decode := SyncGroupRequestAssignment14.decodeK, cut := SyncGroupRequestAssignment14.cut, Part := SyncGroupRequestAssignment14.Part }

theorem SyncGroupRequestAssignment14.sameK (version : Int16) : KStep (SyncGroupRequestAssignment14.decodeK version) (SyncGroupRequestAssignment14.decode version) :=
  (KStep.field)
    |>.andThen (KStep.field)
theorem SyncGroupRequestAssignment14.cutsK (version : Int16) (t : SyncGroupRequestAssignment14) (h : t.Fits version) :
    Cuts (SyncGroupRequestAssignment14.decodeK version) 0 (SyncGroupRequestAssignment14.wire version t) (SyncGroupRequestAssignment14.ends version t 1) (SyncGroupRequestAssignment14.cutAt version t 0) (SyncGroupRequestAssignment14.cutAt version t 2) :=
  (.field (reads_string h.MemberId) (fun _ => rfl) (fun _ => rfl) : Cuts _ 0 _ (SyncGroupRequestAssignment14.ends version t 0) (SyncGroupRequestAssignment14.cutAt version t 0) (SyncGroupRequestAssignment14.cutAt version t 1))
    |>.andThen (.field (reads_bytes h.Assignment) (fun _ => rfl) (fun _ => rfl) : Cuts _ (SyncGroupRequestAssignment14.ends version t 0) _ (SyncGroupRequestAssignment14.ends version t 1) (SyncGroupRequestAssignment14.cutAt version t 1) (SyncGroupRequestAssignment14.cutAt version t 2))
theorem SyncGroupRequestAssignment14.partsK (version : Int16) : Parts (SyncGroupRequestAssignment14.decodeK version) (SyncGroupRequestAssignment14.first 0) (SyncGroupRequestAssignment14.first 2) (fun r y => ((r = SyncGroupRequestAssignment14.first 0 y) ∨ (r = SyncGroupRequestAssignment14.first 1 y))) :=
  (.field Longer.string (fun _ => rfl) (fun _ _ => rfl) (fun _ _ => rfl) (fun _ => rfl) : Parts (KDec.field Dec.string [] (fun t x => { t with MemberId := x })) (SyncGroupRequestAssignment14.first 0) (SyncGroupRequestAssignment14.first 1) (fun r y => r = SyncGroupRequestAssignment14.first 0 y))
    |>.andThen (.field Longer.bytes (fun _ => rfl) (fun _ _ => rfl) (fun _ _ => rfl) (fun _ => rfl) : Parts (KDec.field Dec.bytes none (fun t x => { t with Assignment := x })) (SyncGroupRequestAssignment14.first 1) (SyncGroupRequestAssignment14.first 2) (fun r y => r = SyncGroupRequestAssignment14.first 1 y))
theorem SyncGroupRequestAssignment14.filled (version : Int16) : FilledStep 6 2147483652 (SyncGroupRequestAssignment14.decode version) :=
  ((FilledStep.field .string)
    |>.andThen (FilledStep.field .bytes)).mono (by decide) (by decide)
theorem SyncGroupRequestAssignment14.part_of (r y : SyncGroupRequestAssignment14) (h : ((r = SyncGroupRequestAssignment14.first 0 y) ∨ (r = SyncGroupRequestAssignment14.first 1 y))) : SyncGroupRequestAssignment14.Part r y :=
  match h with
    | (.inl h) => ⟨0, by decide, h⟩
    | (.inr h) => ⟨1, by decide, h⟩
theorem SyncGroupRequestAssignment14.keeps_holds : SyncGroupRequestAssignment14.keeps.Holds SyncGroupRequestAssignment14.layout :=
  KeptMsg.holds SyncGroupRequestAssignment14.lawful SyncGroupRequestAssignment14.sameK (stop := fun v t => SyncGroupRequestAssignment14.ends v t 1) (c := fun v t => SyncGroupRequestAssignment14.cutAt v t 0) (fun _ _ _ => rfl) SyncGroupRequestAssignment14.cutsK (c0 := SyncGroupRequestAssignment14.first 0) rfl SyncGroupRequestAssignment14.partsK SyncGroupRequestAssignment14.part_of SyncGroupRequestAssignment14.filled (by decide) (by decide)

/-- message/messages.gen.go:4659-4693 `SyncGroupRequest.Decode`, with the receiver kept -/
def SyncGroupRequest.decodeK (version : Int16) : KDec SyncGroupRequest :=
    KDec.field Dec.string [] (fun t x => { t with GroupId := x }) ;|>
    KDec.field Dec.int32 0 (fun t x => { t with GenerationId := x }) ;|>
    KDec.field Dec.string [] (fun t x => { t with MemberId := x }) ;|>
    KDec.onlyIf (version ≥ 3) (KDec.field Dec.string [] (fun t x => { t with GroupInstanceId := x })) ;|>
    KDec.fieldStructs (SyncGroupRequestAssignment14.decodeK version {}) {} (fun t x => { t with Assignments := x })

/-- Where the fields of `SyncGroupRequest` end. -/
def SyncGroupRequest.ends (version : Int16) (t : SyncGroupRequest) : Nat → Nat :=
  Cut.ends 0 [Wire.string t.GroupId,
    Wire.int32 t.GenerationId,
    Wire.string t.MemberId,
    Wire.when (version ≥ 3) (Wire.string t.GroupInstanceId),
    Wire.array (SyncGroupRequestAssignment14.wire version) t.Assignments]

/-- What is left of `t` if only its first `n` bytes are there. -/
def SyncGroupRequest.cut (version : Int16) (n : Nat) (t : SyncGroupRequest) : SyncGroupRequest :=
  { GroupId := Cut.field n (t.ends version 0) t.GroupId [],
    GenerationId := Cut.field n (t.ends version 1) t.GenerationId 0,
    MemberId := Cut.field n (t.ends version 2) t.MemberId [],
    GroupInstanceId := Cut.gate (version ≥ 3) (Cut.field n (t.ends version 3) t.GroupInstanceId []) [],
    Assignments := Cut.array n (t.ends version 3) (SyncGroupRequestAssignment14.wire version) (fun x => x.seen version {}) {} t.Assignments }

/-- The same after the first `k` statements of `Decode`. -/
def SyncGroupRequest.cutAt (version : Int16) (t : SyncGroupRequest) (k n : Nat) : SyncGroupRequest :=
  { GroupId := upto k 0 (Cut.field n (t.ends version 0) t.GroupId []) [],
    GenerationId := upto k 1 (Cut.field n (t.ends version 1) t.GenerationId 0) 0,
    MemberId := upto k 2 (Cut.field n (t.ends version 2) t.MemberId []) [],
    GroupInstanceId := upto k 3 (Cut.gate (version ≥ 3) (Cut.field n (t.ends version 3) t.GroupInstanceId []) []) [],
    Assignments := upto k 4 (Cut.array n (t.ends version 3) (SyncGroupRequestAssignment14.wire version) (fun x => x.seen version {}) {} t.Assignments) none }

/-- The first `k` fields of `y`, and zeros. -/
def SyncGroupRequest.first (k : Nat) (y : SyncGroupRequest) : SyncGroupRequest :=
  { GroupId := upto k 0 y.GroupId [],
    GenerationId := upto k 1 y.GenerationId 0,
    MemberId := upto k 2 y.MemberId [],
    GroupInstanceId := upto k 3 y.GroupInstanceId [],
    Assignments := upto k 4 y.Assignments none }

/-- `r` is a beginning of `y`, and zeros. -/
def SyncGroupRequest.Part (r y : SyncGroupRequest) : Prop :=
  (∃ k, k < 5 ∧ r = y.first k) ∨
    Cut.begun {} (fun t => t.Assignments) (fun t x => { t with Assignments := x }) (SyncGroupRequest.first 4) r y

/-- `SyncGroupRequest` with its receiver kept. -/
def SyncGroupRequest.keeps : KeptMsg SyncGroupRequest.type := { decode := SyncGroupRequest.decodeK, cut := SyncGroupRequest.cut, Part := SyncGroupRequest.Part }

theorem SyncGroupRequest.sameK (version : Int16) : KStep (SyncGroupRequest.decodeK version) (SyncGroupRequest.decode version) :=
  (KStep.field)
    |>.andThen (KStep.field)
    |>.andThen (KStep.field)
    |>.andThen (KStep.onlyIf (KStep.field))
    |>.andThen (KStep.structs (fun _ => rfl) (SyncGroupRequestAssignment14.sameK version {}))
theorem SyncGroupRequest.cutsK (version : Int16) (t : SyncGroupRequest) (h : t.Fits version) :
    Cuts (SyncGroupRequest.decodeK version) 0 (SyncGroupRequest.wire version t) (SyncGroupRequest.ends version t 4) (SyncGroupRequest.cutAt version t 0) (SyncGroupRequest.cutAt version t 5) :=
  (.field (reads_string h.GroupId) (fun _ => rfl) (fun _ => rfl) : Cuts _ 0 _ (SyncGroupRequest.ends version t 0) (SyncGroupRequest.cutAt version t 0) (SyncGroupRequest.cutAt version t 1))
    |>.andThen (.field (reads_int32 t.GenerationId) (fun _ => rfl) (fun _ => rfl) : Cuts _ (SyncGroupRequest.ends version t 0) _ (SyncGroupRequest.ends version t 1) (SyncGroupRequest.cutAt version t 1) (SyncGroupRequest.cutAt version t 2))
    |>.andThen (.field (reads_string h.MemberId) (fun _ => rfl) (fun _ => rfl) : Cuts _ (SyncGroupRequest.ends version t 1) _ (SyncGroupRequest.ends version t 2) (SyncGroupRequest.cutAt version t 2) (SyncGroupRequest.cutAt version t 3))
    |>.andThen (.optField (fun hc => reads_string (h.GroupInstanceId hc)) (fun _ => rfl) (fun _ => rfl) : Cuts _ (SyncGroupRequest.ends version t 2) _ (SyncGroupRequest.ends version t 3) (SyncGroupRequest.cutAt version t 3) (SyncGroupRequest.cutAt version t 4))
    |>.andThen (.structs (SyncGroupRequestAssignment14.sameK version {}) (fun x hx => SyncGroupRequestAssignment14.reads version x hx {}) h.Assignments (fun _ => rfl) (fun _ => rfl) : Cuts _ (SyncGroupRequest.ends version t 3) _ (SyncGroupRequest.ends version t 4) (SyncGroupRequest.cutAt version t 4) (SyncGroupRequest.cutAt version t 5))
theorem SyncGroupRequest.partsK (version : Int16) : Parts (SyncGroupRequest.decodeK version) (SyncGroupRequest.first 0) (SyncGroupRequest.first 5) (fun r y => (((((r = SyncGroupRequest.first 0 y) ∨ (r = SyncGroupRequest.first 1 y)) ∨ (r = SyncGroupRequest.first 2 y)) ∨ (r = SyncGroupRequest.first 3 y)) ∨ (r = SyncGroupRequest.first 4 y ∨ Cut.begun {} (fun t => t.Assignments) (fun t x => { t with Assignments := x }) (SyncGroupRequest.first 4) r y))) :=
  (.field Longer.string (fun _ => rfl) (fun _ _ => rfl) (fun _ _ => rfl) (fun _ => rfl) : Parts (KDec.field Dec.string [] (fun t x => { t with GroupId := x })) (SyncGroupRequest.first 0) (SyncGroupRequest.first 1) (fun r y => r = SyncGroupRequest.first 0 y))
    |>.andThen (.field Longer.int32 (fun _ => rfl) (fun _ _ => rfl) (fun _ _ => rfl) (fun _ => rfl) : Parts (KDec.field Dec.int32 0 (fun t x => { t with GenerationId := x })) (SyncGroupRequest.first 1) (SyncGroupRequest.first 2) (fun r y => r = SyncGroupRequest.first 1 y))
    |>.andThen (.field Longer.string (fun _ => rfl) (fun _ _ => rfl) (fun _ _ => rfl) (fun _ => rfl) : Parts (KDec.field Dec.string [] (fun t x => { t with MemberId := x })) (SyncGroupRequest.first 2) (SyncGroupRequest.first 3) (fun r y => r = SyncGroupRequest.first 2 y))
    |>.andThen (.onlyIf (.field Longer.string (fun _ => rfl) (fun _ _ => rfl) (fun _ _ => rfl) (fun _ => rfl)) (fun _ => rfl) : Parts (KDec.onlyIf (version ≥ 3) (KDec.field Dec.string [] (fun t x => { t with GroupInstanceId := x }))) (SyncGroupRequest.first 3) (SyncGroupRequest.first 4) (fun r y => r = SyncGroupRequest.first 3 y))
    |>.andThen (.structs (get := fun (t : SyncGroupRequest) => t.Assignments) ((SyncGroupRequestAssignment14.partsK version).longer {}) (fun _ => rfl) (fun _ => rfl) (fun _ _ => rfl) (fun _ _ => rfl) (fun _ _ => rfl) (fun _ => rfl) (fun _ => rfl) : Parts (KDec.fieldStructs (SyncGroupRequestAssignment14.decodeK version {}) {} (fun t x => { t with Assignments := x })) (SyncGroupRequest.first 4) (SyncGroupRequest.first 5) (fun r y => r = SyncGroupRequest.first 4 y ∨ Cut.begun {} (fun t => t.Assignments) (fun t x => { t with Assignments := x }) (SyncGroupRequest.first 4) r y))
theorem SyncGroupRequest.filled (version : Int16) : FilledStep 14 15032385544 (SyncGroupRequest.decode version) :=
  ((FilledStep.field .string)
    |>.andThen (FilledStep.field .int32)
    |>.andThen (FilledStep.field .string)
    |>.andThen (FilledStep.onlyIf (FilledStep.field .string))
    |>.andThen (FilledStep.structs (SyncGroupRequestAssignment14.filled version {}))).mono (by decide) (by decide)
theorem SyncGroupRequest.part_of (r y : SyncGroupRequest) (h : (((((r = SyncGroupRequest.first 0 y) ∨ (r = SyncGroupRequest.first 1 y)) ∨ (r = SyncGroupRequest.first 2 y)) ∨ (r = SyncGroupRequest.first 3 y)) ∨ (r = SyncGroupRequest.first 4 y ∨ Cut.begun {} (fun t => t.Assignments) (fun t x => { t with Assignments := x }) (SyncGroupRequest.first 4) r y))) : SyncGroupRequest.Part r y :=
  match h with
    | (.inl (.inl (.inl (.inl h)))) => .inl ⟨0, by decide, h⟩
    | (.inl (.inl (.inl (.inr h)))) => .inl ⟨1, by decide, h⟩
    | (.inl (.inl (.inr h))) => .inl ⟨2, by decide, h⟩
    | (.inl (.inr h)) => .inl ⟨3, by decide, h⟩
    | (.inr (.inl h)) => .inl ⟨4, by decide, h⟩
    | (.inr (.inr h)) => (.inr h)
theorem SyncGroupRequest.keeps_holds : SyncGroupRequest.keeps.Holds SyncGroupRequest.layout :=
  KeptMsg.holds SyncGroupRequest.lawful SyncGroupRequest.sameK (stop := fun v t => SyncGroupRequest.ends v t 4) (c := fun v t => SyncGroupRequest.cutAt v t 0) (fun _ _ _ => rfl) SyncGroupRequest.cutsK (c0 := SyncGroupRequest.first 0) rfl SyncGroupRequest.partsK SyncGroupRequest.part_of SyncGroupRequest.filled (by decide) (by decide)

/-- message/messages.gen.go:4756-4773 `SyncGroupResponse.Decode`, with the receiver kept -/
def SyncGroupResponse.decodeK (version : Int16) : KDec SyncGroupResponse :=
    KDec.onlyIf (version ≥ 1) (KDec.field Dec.int32 0 (fun t x => { t with ThrottleTimeMs := x })) ;|>
    KDec.field Dec.int16 0 (fun t x => { t with ErrorCode := x }) ;|>
    KDec.field Dec.bytes none (fun t x => { t with Assignment := x })

/-- Where the fields of `SyncGroupResponse` end. -/
def SyncGroupResponse.ends (version : Int16) (t : SyncGroupResponse) : Nat → Nat :=
  Cut.ends 0 [Wire.when (version ≥ 1) (Wire.int32 t.ThrottleTimeMs),
    Wire.int16 t.ErrorCode,
    Wire.bytes t.Assignment]

/-- What is left of `t` if only its first `n` bytes are there. -/
def SyncGroupResponse.cut (version : Int16) (n : Nat) (t : SyncGroupResponse) : SyncGroupResponse :=
  { ThrottleTimeMs := Cut.gate (version ≥ 1) (Cut.field n (t.ends version 0) t.ThrottleTimeMs 0) 0,
    ErrorCode := Cut.field n (t.ends version 1) t.ErrorCode 0,
    Assignment := Cut.field n (t.ends version 2) t.Assignment.nonNil none }

/-- The same after the first `k` statements of `Decode`. -/
def SyncGroupResponse.cutAt (version : Int16) (t : SyncGroupResponse) (k n : Nat) : SyncGroupResponse :=
  { ThrottleTimeMs := upto k 0 (Cut.gate (version ≥ 1) (Cut.field n (t.ends version 0) t.ThrottleTimeMs 0) 0) 0,
    ErrorCode := upto k 1 (Cut.field n (t.ends version 1) t.ErrorCode 0) 0,
    Assignment := upto k 2 (Cut.field n (t.ends version 2) t.Assignment.nonNil none) none }

/-- The first `k` fields of `y`, and zeros. -/
def SyncGroupResponse.first (k : Nat) (y : SyncGroupResponse) : SyncGroupResponse :=
  { ThrottleTimeMs := upto k 0 y.ThrottleTimeMs 0,
    ErrorCode := upto k 1 y.ErrorCode 0,
    Assignment := upto k 2 y.Assignment none }

/-- `r` is a beginning of `y`, and zeros. -/
def SyncGroupResponse.Part (r y : SyncGroupResponse) : Prop :=
  (∃ k, k < 3 ∧ r = y.first k)

/-- `SyncGroupResponse` with its receiver kept. -/
def SyncGroupResponse.keeps : KeptMsg SyncGroupResponse.type := { decode := SyncGroupResponse.decodeK, cut := SyncGroupResponse.cut, Part := SyncGroupResponse.Part }

theorem SyncGroupResponse.sameK (version : Int16) : KStep (SyncGroupResponse.decodeK version) (SyncGroupResponse.decode version) :=
  (KStep.onlyIf (KStep.field))
    |>.andThen (KStep.field)
    |>.andThen (KStep.field)
theorem SyncGroupResponse.cutsK (version : Int16) (t : SyncGroupResponse) (h : t.Fits version) :
    Cuts (SyncGroupResponse.decodeK version) 0 (SyncGroupResponse.wire version t) (SyncGroupResponse.ends version t 2) (SyncGroupResponse.cutAt version t 0) (SyncGroupResponse.cutAt version t 3) :=
  (.optField (fun _ => reads_int32 t.ThrottleTimeMs) (fun _ => rfl) (fun _ => rfl) : Cuts _ 0 _ (SyncGroupResponse.ends version t 0) (SyncGroupResponse.cutAt version t 0) (SyncGroupResponse.cutAt version t 1))
    |>.andThen (.field (reads_int16 t.ErrorCode) (fun _ => rfl) (fun _ => rfl) : Cuts _ (SyncGroupResponse.ends version t 0) _ (SyncGroupResponse.ends version t 1) (SyncGroupResponse.cutAt version t 1) (SyncGroupResponse.cutAt version t 2))
    |>.andThen (.field (reads_bytes h.Assignment) (fun _ => rfl) (fun _ => rfl) : Cuts _ (SyncGroupResponse.ends version t 1) _ (SyncGroupResponse.ends version t 2) (SyncGroupResponse.cutAt version t 2) (SyncGroupResponse.cutAt version t 3))
theorem SyncGroupResponse.partsK (version : Int16) : Parts (SyncGroupResponse.decodeK version) (SyncGroupResponse.first 0) (SyncGroupResponse.first 3) (fun r y => (((r = SyncGroupResponse.first 0 y) ∨ (r = SyncGroupResponse.first 1 y)) ∨ (r = SyncGroupResponse.first 2 y))) :=
  (.onlyIf (.field Longer.int32 (fun _ => rfl) (fun _ _ => rfl) (fun _ _ => rfl) (fun _ => rfl)) (fun _ => rfl) : Parts (KDec.onlyIf (version ≥ 1) (KDec.field Dec.int32 0 (fun t x => { t with ThrottleTimeMs := x }))) (SyncGroupResponse.first 0) (SyncGroupResponse.first 1) (fun r y => r = SyncGroupResponse.first 0 y))
    |>.andThen (.field Longer.int16 (fun _ => rfl) (fun _ _ => rfl) (fun _ _ => rfl) (fun _ => rfl) : Parts (KDec.field Dec.int16 0 (fun t x => { t with ErrorCode := x })) (SyncGroupResponse.first 1) (SyncGroupResponse.first 2) (fun r y => r = SyncGroupResponse.first 1 y))
    |>.andThen (.field Longer.bytes (fun _ => rfl) (fun _ _ => rfl) (fun _ _ => rfl) (fun _ => rfl) : Parts (KDec.field Dec.bytes none (fun t x => { t with Assignment := x })) (SyncGroupResponse.first 2) (SyncGroupResponse.first 3) (fun r y => r = SyncGroupResponse.first 2 y))
theorem SyncGroupResponse.filled (version : Int16) : FilledStep 10 2147483652 (SyncGroupResponse.decode version) :=
  ((FilledStep.onlyIf (FilledStep.field .int32))
    |>.andThen (FilledStep.field .int16)
    |>.andThen (FilledStep.field .bytes)).mono (by decide) (by decide)
theorem SyncGroupResponse.part_of (r y : SyncGroupResponse) (h : (((r = SyncGroupResponse.first 0 y) ∨ (r = SyncGroupResponse.first 1 y)) ∨ (r = SyncGroupResponse.first 2 y))) : SyncGroupResponse.Part r y :=
  match h with
    | (.inl (.inl h)) => ⟨0, by decide, h⟩
    | (.inl (.inr h)) => ⟨1, by decide, h⟩
    | (.inr h) => ⟨2, by decide, h⟩
theorem SyncGroupResponse.keeps_holds : SyncGroupResponse.keeps.Holds SyncGroupResponse.layout :=
  KeptMsg.holds SyncGroupResponse.lawful SyncGroupResponse.sameK (stop := fun v t => SyncGroupResponse.ends v t 2) (c := fun v t => SyncGroupResponse.cutAt v t 0) (fun _ _ _ => rfl) SyncGroupResponse.cutsK (c0 := SyncGroupResponse.first 0) rfl SyncGroupResponse.partsK SyncGroupResponse.part_of SyncGroupResponse.filled (by decide) (by decide)

/-- The structures of the SyncGroup messages. -/
def keptSyncGroup : List (Σ (M : MsgType) (_ : Layout M), KeptMsg M) :=
  [⟨SyncGroupRequest.type, SyncGroupRequest.layout, SyncGroupRequest.keeps⟩,
   ⟨SyncGroupRequestAssignment14.type, SyncGroupRequestAssignment14.layout, SyncGroupRequestAssignment14.keeps⟩,
   ⟨SyncGroupResponse.type, SyncGroupResponse.layout, SyncGroupResponse.keeps⟩]
theorem keptSyncGroup_holds : ∀ p ∈ keptSyncGroup, p.2.2.Holds p.2.1 := by
  unfold keptSyncGroup
  simp only [List.forall_mem_cons]
  exact ⟨SyncGroupRequest.keeps_holds, SyncGroupRequestAssignment14.keeps_holds, SyncGroupResponse.keeps_holds, fun _ h => absurd h (by simp)⟩

end Kafka.Msg
