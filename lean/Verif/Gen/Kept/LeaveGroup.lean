import Verif.Message.KeptLemmas
import Verif.Gen.Proof.LeaveGroup
/-!
Generated by tools/gen_messages.py: what is in the LeaveGroup messages after an error.
-/
set_option linter.unusedVariables false
namespace Kafka.Msg

/-- message/messages.gen.go:4472-4487 `MemberIdentity13.Decode`, with the receiver kept -/
def MemberIdentity13.decodeK (version : Int16) : KDec MemberIdentity13 :=
    KDec.onlyIf (version ≥ 3) (KDec.field Dec.string [] (fun t x => { t with MemberId := x })) ;|>
    KDec.onlyIf (version ≥ 3) (KDec.field Dec.string [] (fun t x => { t with GroupInstanceId := x }))

/-- Where the fields of `MemberIdentity13` end. -/
def MemberIdentity13.ends (version : Int16) (t : MemberIdentity13) : Nat → Nat :=
  Cut.ends 0 [Wire.when (version ≥ 3) (Wire.string t.MemberId),
    Wire.when (version ≥ 3) (Wire.string t.GroupInstanceId)]

/-- What is left of `t` if only its first `n` bytes are there. -/
def MemberIdentity13.cut (version : Int16) (n : Nat) (t : MemberIdentity13) : MemberIdentity13 :=
  { MemberId := Cut.gate (version ≥ 3) (Cut.field n (t.ends version 0) t.MemberId []) [],
    GroupInstanceId := Cut.gate (version ≥ 3) (Cut.field n (t.ends version 1) t.GroupInstanceId []) [] }

/-- The same after the first `k` statements of `Decode`. -/
def MemberIdentity13.cutAt (version : Int16) (t : MemberIdentity13) (k n : Nat) : MemberIdentity13 :=
  { MemberId := upto k 0 (Cut.gate (version ≥ 3) (Cut.field n (t.ends version 0) t.MemberId []) []) [],
    GroupInstanceId := upto k 1 (Cut.gate (version ≥ 3) (Cut.field n (t.ends version 1) t.GroupInstanceId []) []) [] }

/-- The first `k` fields of `y`, and zeros. -/
def MemberIdentity13.first (k : Nat) (y : MemberIdentity13) : MemberIdentity13 :=
  { MemberId := upto k 0 y.MemberId [],
    GroupInstanceId := upto k 1 y.GroupInstanceId [] }

/-- `r` is a beginning of `y`, and zeros. -/
def MemberIdentity13.Part (r y : MemberIdentity13) : Prop :=
  (∃ k, k < 2 ∧ r = y.first k)

/-- `MemberIdentity13` with its receiver kept. -/
def MemberIdentity13.keeps : KeptMsg MemberIdentity13.type := { decode := MemberIdentity13.decodeK, cut := MemberIdentity13.cut, Part := MemberIdentity13.Part }

theorem MemberIdentity13.sameK (version : Int16) : KStep (MemberIdentity13.decodeK version) (MemberIdentity13.decode version) :=
  (KStep.onlyIf (KStep.field))
    |>.andThen (KStep.onlyIf (KStep.field))
theorem MemberIdentity13.cutsK (version : Int16) (t : MemberIdentity13) (h : t.Fits version) :
    Cuts (MemberIdentity13.decodeK version) 0 (MemberIdentity13.wire version t) (MemberIdentity13.ends version t 1) (MemberIdentity13.cutAt version t 0) (MemberIdentity13.cutAt version t 2) :=
  (.optField (fun hc => reads_string (h.MemberId hc)) (fun _ => rfl) (fun _ => rfl) : Cuts _ 0 _ (MemberIdentity13.ends version t 0) (MemberIdentity13.cutAt version t 0) (MemberIdentity13.cutAt version t 1))
    |>.andThen (.optField (fun hc => reads_string (h.GroupInstanceId hc)) (fun _ => rfl) (fun _ => rfl) : Cuts _ (MemberIdentity13.ends version t 0) _ (MemberIdentity13.ends version t 1) (MemberIdentity13.cutAt version t 1) (MemberIdentity13.cutAt version t 2))
theorem MemberIdentity13.partsK (version : Int16) : Parts (MemberIdentity13.decodeK version) (MemberIdentity13.first 0) (MemberIdentity13.first 2) (fun r y => ((r = MemberIdentity13.first 0 y) ∨ (r = MemberIdentity13.first 1 y))) :=
  (.onlyIf (.field Longer.string (fun _ => rfl) (fun _ _ => rfl) (fun _ _ => rfl) (fun _ => rfl)) (fun _ => rfl) : Parts (KDec.onlyIf (version ≥ 3) (KDec.field Dec.string [] (fun t x => { t with MemberId := x }))) (MemberIdentity13.first 0) (MemberIdentity13.first 1) (fun r y => r = MemberIdentity13.first 0 y))
    |>.andThen (.onlyIf (.field Longer.string (fun _ => rfl) (fun _ _ => rfl) (fun _ _ => rfl) (fun _ => rfl)) (fun _ => rfl) : Parts (KDec.onlyIf (version ≥ 3) (KDec.field Dec.string [] (fun t x => { t with GroupInstanceId := x }))) (MemberIdentity13.first 1) (MemberIdentity13.first 2) (fun r y => r = MemberIdentity13.first 1 y))
theorem MemberIdentity13.filled (version : Int16) : FilledStep 4 32772 (MemberIdentity13.decode version) :=
  ((FilledStep.onlyIf (FilledStep.field .string))
    |>.andThen (FilledStep.onlyIf (FilledStep.field .string))).mono (by decide) (by decide)
theorem MemberIdentity13.part_of (r y : MemberIdentity13) (h : ((r = MemberIdentity13.first 0 y) ∨ (r = MemberIdentity13.first 1 y))) : MemberIdentity13.Part r y :=
  match h with
    | (.inl h) => ⟨0, by decide, h⟩
    | (.inr h) => ⟨1, by decide, h⟩
theorem MemberIdentity13.keeps_holds : MemberIdentity13.keeps.Holds MemberIdentity13.layout :=
  KeptMsg.holds MemberIdentity13.lawful MemberIdentity13.sameK (stop := fun v t => MemberIdentity13.ends v t 1) (c := fun v t => MemberIdentity13.cutAt v t 0) (fun _ _ _ => rfl) MemberIdentity13.cutsK (c0 := MemberIdentity13.first 0) rfl MemberIdentity13.partsK MemberIdentity13.part_of MemberIdentity13.filled (by decide) (by decide)

/-- message/messages.gen.go:4414-4442 `LeaveGroupRequest.Decode`, with the receiver kept -/
def LeaveGroupRequest.decodeK (version : Int16) : KDec LeaveGroupRequest :=
    KDec.field Dec.string [] (fun t x => { t with GroupId := x }) ;|>
    KDec.onlyIf (version ≥ 0 ∧ version ≤ 2) (KDec.field Dec.string [] (fun t x => { t with MemberId := x })) ;|>
    KDec.onlyIf (version ≥ 3) (KDec.fieldStructs (MemberIdentity13.decodeK version {}) {} (fun t x => { t with Members := x }))

/-- Where the fields of `LeaveGroupRequest` end. -/
def LeaveGroupRequest.ends (version : Int16) (t : LeaveGroupRequest) : Nat → Nat :=
  Cut.ends 0 [Wire.string t.GroupId,
    Wire.when (version ≥ 0 ∧ version ≤ 2) (Wire.string t.MemberId),
    Wire.when (version ≥ 3) (Wire.array (MemberIdentity13.wire version) t.Members)]

/-- What is left of `t` if only its first `n` bytes are there. -/
def LeaveGroupRequest.cut (version : Int16) (n : Nat) (t : LeaveGroupRequest) : LeaveGroupRequest :=
  { GroupId := Cut.field n (t.ends version 0) t.GroupId [],
    MemberId := Cut.gate (version ≥ 0 ∧ version ≤ 2) (Cut.field n (t.ends version 1) t.MemberId []) [],
    Members := Cut.gate (version ≥ 3) (Cut.array n (t.ends version 1) (MemberIdentity13.wire version) (fun x => x.seen version {}) {} t.Members) none }

/-- The same after the first `k` statements of `Decode`. -/
def LeaveGroupRequest.cutAt (version : Int16) (t : LeaveGroupRequest) (k n : Nat) : LeaveGroupRequest :=
  { GroupId := upto k 0 (Cut.field n (t.ends version 0) t.GroupId []) [],
    MemberId := upto k 1 (Cut.gate (version ≥ 0 ∧ version ≤ 2) (Cut.field n (t.ends version 1) t.MemberId []) []) [],
    Members := upto k 2 (Cut.gate (version ≥ 3) (Cut.array n (t.ends version 1) (MemberIdentity13.wire version) (fun x => x.seen version {}) {} t.Members) none) none }

/-- The first `k` fields of `y`, and zeros. -/
def LeaveGroupRequest.first (k : Nat) (y : LeaveGroupRequest) : LeaveGroupRequest :=
  { GroupId := upto k 0 y.GroupId [],
    MemberId := upto k 1 y.MemberId [],
    Members := upto k 2 y.Members none }

/-- `r` is a beginning of `y`, and zeros. -/
def LeaveGroupRequest.Part (r y : LeaveGroupRequest) : Prop :=
  (∃ k, k < 3 ∧ r = y.first k) ∨
    Cut.begun {} (fun t => t.Members) (fun t x => { t with Members := x }) (LeaveGroupRequest.first 2) r y

/-- `LeaveGroupRequest` with its receiver kept. -/
def LeaveGroupRequest.keeps : KeptMsg LeaveGroupRequest.type := { decode := LeaveGroupRequest.decodeK, cut := LeaveGroupRequest.cut, Part := LeaveGroupRequest.Part }

theorem LeaveGroupRequest.sameK (version : Int16) : KStep (LeaveGroupRequest.decodeK version) (LeaveGroupRequest.decode version) :=
  (KStep.field)
    |>.andThen (KStep.onlyIf (KStep.field))
    |>.andThen (KStep.onlyIf (KStep.structs (fun _ => rfl) (MemberIdentity13.sameK version {})))
theorem LeaveGroupRequest.cutsK (version : Int16) (t : LeaveGroupRequest) (h : t.Fits version) :
    Cuts (LeaveGroupRequest.decodeK version) 0 (LeaveGroupRequest.wire version t) (LeaveGroupRequest.ends version t 2) (LeaveGroupRequest.cutAt version t 0) (LeaveGroupRequest.cutAt version t 3) :=
  (.field (reads_string h.GroupId) (fun _ => rfl) (fun _ => rfl) : Cuts _ 0 _ (LeaveGroupRequest.ends version t 0) (LeaveGroupRequest.cutAt version t 0) (LeaveGroupRequest.cutAt version t 1))
    |>.andThen (.optField (fun hc => reads_string (h.MemberId hc)) (fun _ => rfl) (fun _ => rfl) : Cuts _ (LeaveGroupRequest.ends version t 0) _ (LeaveGroupRequest.ends version t 1) (LeaveGroupRequest.cutAt version t 1) (LeaveGroupRequest.cutAt version t 2))
    |>.andThen (.optStructs (MemberIdentity13.sameK version {}) (fun x hx => MemberIdentity13.reads version x hx {}) h.Members (fun _ => rfl) (fun _ => rfl) : Cuts _ (LeaveGroupRequest.ends version t 1) _ (LeaveGroupRequest.ends version t 2) (LeaveGroupRequest.cutAt version t 2) (LeaveGroupRequest.cutAt version t 3))
theorem LeaveGroupRequest.partsK (version : Int16) : Parts (LeaveGroupRequest.decodeK version) (LeaveGroupRequest.first 0) (LeaveGroupRequest.first 3) (fun r y => (((r = LeaveGroupRequest.first 0 y) ∨ (r = LeaveGroupRequest.first 1 y)) ∨ (r = LeaveGroupRequest.first 2 y ∨ Cut.begun {} (fun t => t.Members) (fun t x => { t with Members := x }) (LeaveGroupRequest.first 2) r y))) :=
  (.field Longer.string (fun _ => rfl) (fun _ _ => rfl) (fun _ _ => rfl) (fun _ => rfl) : Parts (KDec.field Dec.string [] (fun t x => { t with GroupId := x })) (LeaveGroupRequest.first 0) (LeaveGroupRequest.first 1) (fun r y => r = LeaveGroupRequest.first 0 y))
    |>.andThen (.onlyIf (.field Longer.string (fun _ => rfl) (fun _ _ => rfl) (fun _ _ => rfl) (fun _ => rfl)) (fun _ => rfl) : Parts (KDec.onlyIf (version ≥ 0 ∧ version ≤ 2) (KDec.field Dec.string [] (fun t x => { t with MemberId := x }))) (LeaveGroupRequest.first 1) (LeaveGroupRequest.first 2) (fun r y => r = LeaveGroupRequest.first 1 y))
    |>.andThen (.onlyIf (.structs (get := fun (t : LeaveGroupRequest) => t.Members) ((MemberIdentity13.partsK version).longer {}) (fun _ => rfl) (fun _ => rfl) (fun _ _ => rfl) (fun _ _ => rfl) (fun _ _ => rfl) (fun _ => rfl) (fun _ => rfl)) (fun _ => rfl) : Parts (KDec.onlyIf (version ≥ 3) (KDec.fieldStructs (MemberIdentity13.decodeK version {}) {} (fun t x => { t with Members := x }))) (LeaveGroupRequest.first 2) (LeaveGroupRequest.first 3) (fun r y => r = LeaveGroupRequest.first 2 y ∨ Cut.begun {} (fun t => t.Members) (fun t x => { t with Members := x }) (LeaveGroupRequest.first 2) r y))
theorem LeaveGroupRequest.filled (version : Int16) : FilledStep 8 8589967368 (LeaveGroupRequest.decode version) :=
  ((FilledStep.field .string)
    |>.andThen (FilledStep.onlyIf (FilledStep.field .string))
    |>.andThen (FilledStep.onlyIf (FilledStep.structs (MemberIdentity13.filled version {})))).mono (by decide) (by decide)
theorem LeaveGroupRequest.part_of (r y : LeaveGroupRequest) (h : (((r = LeaveGroupRequest.first 0 y) ∨ (r = LeaveGroupRequest.first 1 y)) ∨ (r = LeaveGroupRequest.first 2 y ∨ Cut.begun {} (fun t => t.Members) (fun t x => { t with Members := x }) (LeaveGroupRequest.first 2) r y))) : LeaveGroupRequest.Part r y :=
  match h with
    | (.inl (.inl h)) => .inl ⟨0, by decide, h⟩
    | (.inl (.inr h)) => .inl ⟨1, by decide, h⟩
    | (.inr (.inl h)) => .inl ⟨2, by decide, h⟩
    | (.inr (.inr h)) => (.inr h)
theorem LeaveGroupRequest.keeps_holds : LeaveGroupRequest.keeps.Holds LeaveGroupRequest.layout :=
  KeptMsg.holds LeaveGroupRequest.lawful LeaveGroupRequest.sameK (stop := fun v t => LeaveGroupRequest.ends v t 2) (c := fun v t => LeaveGroupRequest.cutAt v t 0) (fun _ _ _ => rfl) LeaveGroupRequest.cutsK (c0 := LeaveGroupRequest.first 0) rfl LeaveGroupRequest.partsK LeaveGroupRequest.part_of LeaveGroupRequest.filled (by decide) (by decide)

/-- message/messages.gen.go:4594-4615 `MemberResponse13.Decode`, with the receiver kept -/
def MemberResponse13.decodeK (version : Int16) : KDec MemberResponse13 :=
    KDec.onlyIf (version ≥ 3) (KDec.field Dec.string [] (fun t x => { t with MemberId := x })) ;|>
    KDec.onlyIf (version ≥ 3) (KDec.field Dec.string [] (fun t x => { t with GroupInstanceId := x })) ;|>
    KDec.onlyIf (version ≥ 3) (KDec.field Dec.int16 0 (fun t x => { t with ErrorCode := x }))

/-- Where the fields of `MemberResponse13` end. -/
def MemberResponse13.ends (version : Int16) (t : MemberResponse13) : Nat → Nat :=
  Cut.ends 0 [Wire.when (version ≥ 3) (Wire.string t.MemberId),
    Wire.when (version ≥ 3) (Wire.string t.GroupInstanceId),
    Wire.when (version ≥ 3) (Wire.int16 t.ErrorCode)]

/-- What is left of `t` if only its first `n` bytes are there. -/
def MemberResponse13.cut (version : Int16) (n : Nat) (t : MemberResponse13) : MemberResponse13 :=
  { MemberId := Cut.gate (version ≥ 3) (Cut.field n (t.ends version 0) t.MemberId []) [],
    GroupInstanceId := Cut.gate (version ≥ 3) (Cut.field n (t.ends version 1) t.GroupInstanceId []) [],
    ErrorCode := Cut.gate (version ≥ 3) (Cut.field n (t.ends version 2) t.ErrorCode 0) 0 }

/-- The same after the first `k` statements of `Decode`. -/
def MemberResponse13.cutAt (version : Int16) (t : MemberResponse13) (k n : Nat) : MemberResponse13 :=
  { MemberId := upto k 0 (Cut.gate (version ≥ 3) (Cut.field n (t.ends version 0) t.MemberId []) []) [],
    GroupInstanceId := upto k 1 (Cut.gate (version ≥ 3) (Cut.field n (t.ends version 1) t.GroupInstanceId []) []) [],
    ErrorCode := upto k 2 (Cut.gate (version ≥ 3) (Cut.field n (t.ends version 2) t.ErrorCode 0) 0) 0 }

/-- The first `k` fields of `y`, and zeros. -/
def MemberResponse13.first (k : Nat) (y : MemberResponse13) : MemberResponse13 :=
  { MemberId := upto k 0 y.MemberId [],
    GroupInstanceId := upto k 1 y.GroupInstanceId [],
    ErrorCode := upto k 2 y.ErrorCode 0 }

/-- `r` is a beginning of `y`, and zeros. -/
def MemberResponse13.Part (r y : MemberResponse13) : Prop :=
  (∃ k, k < 3 ∧ r = y.first k)

/-- `MemberResponse13` with its receiver kept. -/
def MemberResponse13.keeps : KeptMsg MemberResponse13.type := { decode := MemberResponse13.decodeK, cut := MemberResponse13.cut, Part := MemberResponse13.Part }

theorem MemberResponse13.sameK (version : Int16) : KStep (MemberResponse13.decodeK version) (MemberResponse13.decode version) :=
  (KStep.onlyIf (KStep.field))
    |>.andThen (KStep.onlyIf (KStep.field))
    |>.andThen (KStep.onlyIf (KStep.field))
theorem MemberResponse13.cutsK (version : Int16) (t : MemberResponse13) (h : t.Fits version) :
    Cuts (MemberResponse13.decodeK version) 0 (MemberResponse13.wire version t) (MemberResponse13.ends version t 2) (MemberResponse13.cutAt version t 0) (MemberResponse13.cutAt version t 3) :=
  (.optField (fun hc => reads_string (h.MemberId hc)) (fun _ => rfl) (fun _ => rfl) : Cuts _ 0 _ (MemberResponse13.ends version t 0) (MemberResponse13.cutAt version t 0) (MemberResponse13.cutAt version t 1))
    |>.andThen (.optField (fun hc => reads_string (h.GroupInstanceId hc)) (fun _ => rfl) (fun _ => rfl) : Cuts _ (MemberResponse13.ends version t 0) _ (MemberResponse13.ends version t 1) (MemberResponse13.cutAt version t 1) (MemberResponse13.cutAt version t 2))
    |>.andThen (.optField (fun _ => reads_int16 t.ErrorCode) (fun _ => rfl) (fun _ => rfl) : Cuts _ (MemberResponse13.ends version t 1) _ (MemberResponse13.ends version t 2) (MemberResponse13.cutAt version t 2) (MemberResponse13.cutAt version t 3))
theorem MemberResponse13.partsK (version : Int16) : Parts (MemberResponse13.decodeK version) (MemberResponse13.first 0) (MemberResponse13.first 3) (fun r y => (((r = MemberResponse13.first 0 y) ∨ (r = MemberResponse13.first 1 y)) ∨ (r = MemberResponse13.first 2 y))) :=
  (.onlyIf (.field Longer.string (fun _ => rfl) (fun _ _ => rfl) (fun _ _ => rfl) (fun _ => rfl)) (fun _ => rfl) : Parts (KDec.onlyIf (version ≥ 3) (KDec.field Dec.string [] (fun t x => { t with MemberId := x }))) (MemberResponse13.first 0) (MemberResponse13.first 1) (fun r y => r = MemberResponse13.first 0 y))
    |>.andThen (.onlyIf (.field Longer.string (fun _ => rfl) (fun _ _ => rfl) (fun _ _ => rfl) (fun _ => rfl)) (fun _ => rfl) : Parts (KDec.onlyIf (version ≥ 3) (KDec.field Dec.string [] (fun t x => { t with GroupInstanceId := x }))) (MemberResponse13.first 1) (MemberResponse13.first 2) (fun r y => r = MemberResponse13.first 1 y))
    |>.andThen (.onlyIf (.field Longer.int16 (fun _ => rfl) (fun _ _ => rfl) (fun _ _ => rfl) (fun _ => rfl)) (fun _ => rfl) : Parts (KDec.onlyIf (version ≥ 3) (KDec.field Dec.int16 0 (fun t x => { t with ErrorCode := x }))) (MemberResponse13.first 2) (MemberResponse13.first 3) (fun r y => r = MemberResponse13.first 2 y))
theorem MemberResponse13.filled (version : Int16) : FilledStep 6 32774 (MemberResponse13.decode version) :=
  ((FilledStep.onlyIf (FilledStep.field .string))
    |>.andThen (FilledStep.onlyIf (FilledStep.field .string))
    |>.andThen (FilledStep.onlyIf (FilledStep.field .int16))).mono (by decide) (by decide)
theorem MemberResponse13.part_of (r y : MemberResponse13) (h : (((r = MemberResponse13.first 0 y) ∨ (r = MemberResponse13.first 1 y)) ∨ (r = MemberResponse13.first 2 y))) : MemberResponse13.Part r y :=
  match h with
    | (.inl (.inl h)) => ⟨0, by decide, h⟩
    | (.inl (.inr h)) => ⟨1, by decide, h⟩
    | (.inr h) => ⟨2, by decide, h⟩
theorem MemberResponse13.keeps_holds : MemberResponse13.keeps.Holds MemberResponse13.layout :=
  KeptMsg.holds MemberResponse13.lawful MemberResponse13.sameK (stop := fun v t => MemberResponse13.ends v t 2) (c := fun v t => MemberResponse13.cutAt v t 0) (fun _ _ _ => rfl) MemberResponse13.cutsK (c0 := MemberResponse13.first 0) rfl MemberResponse13.partsK MemberResponse13.part_of MemberResponse13.filled (by decide) (by decide)

/-- message/messages.gen.go:4529-4557 `LeaveGroupResponse.Decode`, with the receiver kept -/
def LeaveGroupResponse.decodeK (version : Int16) : KDec LeaveGroupResponse :=
    KDec.onlyIf (version ≥ 1) (KDec.field Dec.int32 0 (fun t x => { t with ThrottleTimeMs := x })) ;|>
    KDec.field Dec.int16 0 (fun t x => { t with ErrorCode := x }) ;|>
    KDec.onlyIf (version ≥ 3) (KDec.fieldStructs (MemberResponse13.decodeK version {}) {} (fun t x => { t with Members := x }))

/-- Where the fields of `LeaveGroupResponse` end. -/
def LeaveGroupResponse.ends (version : Int16) (t : LeaveGroupResponse) : Nat → Nat :=
  Cut.ends 0 [Wire.when (version ≥ 1) (Wire.int32 t.ThrottleTimeMs),
    Wire.int16 t.ErrorCode,
    Wire.when (version ≥ 3) (Wire.array (MemberResponse13.wire version) t.Members)]

/-- What is left of `t` if only its first `n` bytes are there. -/
def LeaveGroupResponse.cut (version : Int16) (n : Nat) (t : LeaveGroupResponse) : LeaveGroupResponse :=
  { ThrottleTimeMs := Cut.gate (version ≥ 1) (Cut.field n (t.ends version 0) t.ThrottleTimeMs 0) 0,
    ErrorCode := Cut.field n (t.ends version 1) t.ErrorCode 0,
    Members := Cut.gate (version ≥ 3) (Cut.array n (t.ends version 1) (MemberResponse13.wire version) (fun x => x.seen version {}) {} t.Members) none }

/-- The same after the first `k` statements of `Decode`. -/
def LeaveGroupResponse.cutAt (version : Int16) (t : LeaveGroupResponse) (k n : Nat) : LeaveGroupResponse :=
  { ThrottleTimeMs := upto k 0 (Cut.gate (version ≥ 1) (Cut.field n (t.ends version 0) t.ThrottleTimeMs 0) 0) 0,
    ErrorCode := upto k 1 (Cut.field n (t.ends version 1) t.ErrorCode 0) 0,
    Members := upto k 2 (Cut.gate (version ≥ 3) (Cut.array n (t.ends version 1) (MemberResponse13.wire version) (fun x => x.seen version {}) {} t.Members) none) none }

/-- The first `k` fields of `y`, and zeros. -/
def LeaveGroupResponse.first (k : Nat) (y : LeaveGroupResponse) : LeaveGroupResponse :=
  { ThrottleTimeMs := upto k 0 y.ThrottleTimeMs 0,
    ErrorCode := upto k 1 y.ErrorCode 0,
    Members := upto k 2 y.Members none }

/-- `r` is a beginning of `y`, and zeros. -/
def LeaveGroupResponse.Part (r y : LeaveGroupResponse) : Prop :=
  (∃ k, k < 3 ∧ r = y.first k) ∨
    Cut.begun {} (fun t => t.Members) (fun t x => { t with Members := x }) (LeaveGroupResponse.first 2) r y

/-- `LeaveGroupResponse` with its receiver kept. -/
def LeaveGroupResponse.keeps : KeptMsg LeaveGroupResponse.type := { decode := LeaveGroupResponse.decodeK, cut := LeaveGroupResponse.cut, Part := LeaveGroupResponse.Part }

theorem LeaveGroupResponse.sameK (version : Int16) : KStep (LeaveGroupResponse.decodeK version) (LeaveGroupResponse.decode version) :=
  (KStep.onlyIf (KStep.field))
    |>.andThen (KStep.field)
    |>.andThen (KStep.onlyIf (KStep.structs (fun _ => rfl) (MemberResponse13.sameK version {})))
theorem LeaveGroupResponse.cutsK (version : Int16) (t : LeaveGroupResponse) (h : t.Fits version) :
    Cuts (LeaveGroupResponse.decodeK version) 0 (LeaveGroupResponse.wire version t) (LeaveGroupResponse.ends version t 2) (LeaveGroupResponse.cutAt version t 0) (LeaveGroupResponse.cutAt version t 3) :=
  (.optField (fun _ => reads_int32 t.ThrottleTimeMs) (fun _ => rfl) (fun _ => rfl) : Cuts _ 0 _ (LeaveGroupResponse.ends version t 0) (LeaveGroupResponse.cutAt version t 0) (LeaveGroupResponse.cutAt version t 1))
    |>.andThen (.field (reads_int16 t.ErrorCode) (fun _ => rfl) (fun _ => rfl) : Cuts _ (LeaveGroupResponse.ends version t 0) _ (LeaveGroupResponse.ends version t 1) (LeaveGroupResponse.cutAt version t 1) (LeaveGroupResponse.cutAt version t 2))
    |>.andThen (.optStructs (MemberResponse13.sameK version {}) (fun x hx => MemberResponse13.reads version x hx {}) h.Members (fun _ => rfl) (fun _ => rfl) : Cuts _ (LeaveGroupResponse.ends version t 1) _ (LeaveGroupResponse.ends version t 2) (LeaveGroupResponse.cutAt version t 2) (LeaveGroupResponse.cutAt version t 3))
theorem LeaveGroupResponse.partsK (version : Int16) : Parts (LeaveGroupResponse.decodeK version) (LeaveGroupResponse.first 0) (LeaveGroupResponse.first 3) (fun r y => (((r = LeaveGroupResponse.first 0 y) ∨ (r = LeaveGroupResponse.first 1 y)) ∨ (r = LeaveGroupResponse.first 2 y ∨ Cut.begun {} (fun t => t.Members) (fun t x => { t with Members := x }) (LeaveGroupResponse.first 2) r y))) :=
  (.onlyIf (.field Longer.int32 (fun _ => rfl) (fun _ _ => rfl) (fun _ _ => rfl) (fun _ => rfl)) (fun _ => rfl) : Parts (KDec.onlyIf (version ≥ 1) (KDec.field Dec.int32 0 (fun t x => { t with ThrottleTimeMs := x }))) (LeaveGroupResponse.first 0) (LeaveGroupResponse.first 1) (fun r y => r = LeaveGroupResponse.first 0 y))
    |>.andThen (.field Longer.int16 (fun _ => rfl) (fun _ _ => rfl) (fun _ _ => rfl) (fun _ => rfl) : Parts (KDec.field Dec.int16 0 (fun t x => { t with ErrorCode := x })) (LeaveGroupResponse.first 1) (LeaveGroupResponse.first 2) (fun r y => r = LeaveGroupResponse.first 1 y))
    |>.andThen (.onlyIf (.structs (get := fun (t : LeaveGroupResponse) => t.Members) ((MemberResponse13.partsK version).longer {}) (fun _ => rfl) (fun _ => rfl) (fun _ _ => rfl) (fun _ _ => rfl) (fun _ _ => rfl) (fun _ => rfl) (fun _ => rfl)) (fun _ => rfl) : Parts (KDec.onlyIf (version ≥ 3) (KDec.fieldStructs (MemberResponse13.decodeK version {}) {} (fun t x => { t with Members := x }))) (LeaveGroupResponse.first 2) (LeaveGroupResponse.first 3) (fun r y => r = LeaveGroupResponse.first 2 y ∨ Cut.begun {} (fun t => t.Members) (fun t x => { t with Members := x }) (LeaveGroupResponse.first 2) r y))
theorem LeaveGroupResponse.filled (version : Int16) : FilledStep 10 12884934666 (LeaveGroupResponse.decode version) :=
  ((FilledStep.onlyIf (FilledStep.field .int32))
    |>.andThen (FilledStep.field .int16)
    |>.andThen (FilledStep.onlyIf (FilledStep.structs (MemberResponse13.filled version {})))).mono (by decide) (by decide)
theorem LeaveGroupResponse.part_of (r y : LeaveGroupResponse) (h : (((r = LeaveGroupResponse.first 0 y) ∨ (r = LeaveGroupResponse.first 1 y)) ∨ (r = LeaveGroupResponse.first 2 y ∨ Cut.begun {} (fun t => t.Members) (fun t x => { t with Members := x }) (LeaveGroupResponse.first 2) r y))) : LeaveGroupResponse.Part r y :=
  match h with
    | (.inl (.inl h)) => .inl ⟨0, by decide, h⟩
    | (.inl (.inr h)) => .inl ⟨1, by decide, h⟩
    | (.inr (.inl h)) => .inl ⟨2, by decide, h⟩
    | (.inr (.inr h)) => (.inr h)
theorem LeaveGroupResponse.keeps_holds : LeaveGroupResponse.keeps.Holds LeaveGroupResponse.layout :=
  KeptMsg.holds LeaveGroupResponse.lawful LeaveGroupResponse.sameK (stop := fun v t => LeaveGroupResponse.ends v t 2) (c := fun v t => LeaveGroupResponse.cutAt v t 0) (fun _ _ _ => rfl) LeaveGroupResponse.cutsK (c0 := LeaveGroupResponse.first 0) rfl LeaveGroupResponse.partsK LeaveGroupResponse.part_of LeaveGroupResponse.filled (by decide) (by decide)

/-- The structures of the LeaveGroup messages. -/
def keptLeaveGroup : List (Σ (M : MsgType) (_ : Layout M), KeptMsg M) :=
  [⟨LeaveGroupRequest.type, LeaveGroupRequest.layout, LeaveGroupRequest.keeps⟩,
   ⟨MemberIdentity13.type, MemberIdentity13.layout, MemberIdentity13.keeps⟩,
   ⟨LeaveGroupResponse.type, LeaveGroupResponse.layout, LeaveGroupResponse.keeps⟩,
   ⟨MemberResponse13.type, MemberResponse13.layout, MemberResponse13.keeps⟩]
theorem keptLeaveGroup_holds : ∀ p ∈ keptLeaveGroup, p.2.2.Holds p.2.1 := by
  unfold keptLeaveGroup
  simp only [List.forall_mem_cons]
  exact ⟨LeaveGroupRequest.keeps_holds, MemberIdentity13.keeps_holds, LeaveGroupResponse.keeps_holds, MemberResponse13.keeps_holds, fun _ h => absurd h (by simp)⟩

end Kafka.Msg
