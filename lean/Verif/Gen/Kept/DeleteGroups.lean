import Verif.Message.KeptLemmas
import Verif.Gen.Proof.DeleteGroups
/-!
Generated by tools/gen_messages.py: what is in the DeleteGroups messages after an error.
-/
set_option linter.unusedVariables false
namespace Kafka.Msg

/-- message/messages.gen.go:10499-10506 `DeleteGroupsRequest.Decode`, with the receiver kept -/
def DeleteGroupsRequest.decodeK (_version : Int16) : KDec DeleteGroupsRequest :=
    KDec.field Dec.stringArray none (fun t x => { t with GroupsNames := x })

/-- Where the fields of `DeleteGroupsRequest` end. -/
def DeleteGroupsRequest.ends (_version : Int16) (t : DeleteGroupsRequest) : Nat → Nat :=
  Cut.ends 0 [Wire.stringArray t.GroupsNames]

/-- What is left of `t` if only its first `n` bytes are there. -/
def DeleteGroupsRequest.cut (version : Int16) (n : Nat) (t : DeleteGroupsRequest) : DeleteGroupsRequest :=
  { GroupsNames := Cut.field n (t.ends version 0) t.GroupsNames none }

/-- The same after the first `k` statements of `Decode`. -/
def DeleteGroupsRequest.cutAt (version : Int16) (t : DeleteGroupsRequest) (k n : Nat) : DeleteGroupsRequest :=
  { GroupsNames := upto k 0 (Cut.field n (t.ends version 0) t.GroupsNames none) none }

/-- The first `k` fields of `y`, and zeros. -/
def DeleteGroupsRequest.first (k : Nat) (y : DeleteGroupsRequest) : DeleteGroupsRequest :=
  { GroupsNames := upto k 0 y.GroupsNames none }

/-- `r` is a beginning of `y`, and zeros. -/
def DeleteGroupsRequest.Part (r y : DeleteGroupsRequest) : Prop :=
  (∃ k, k < 1 ∧ r = y.first k)

/-- `DeleteGroupsRequest` with its receiver kept. -/
def DeleteGroupsRequest.keeps : KeptMsg DeleteGroupsRequest.type := { decode := DeleteGroupsRequest.decodeK, cut := DeleteGroupsRequest.cut, Part := DeleteGroupsRequest.Part }

theorem DeleteGroupsRequest.sameK (version : Int16) : KStep (DeleteGroupsRequest.decodeK version) (DeleteGroupsRequest.decode version) :=
  KStep.field
theorem DeleteGroupsRequest.cutsK (version : Int16) (t : DeleteGroupsRequest) (h : t.Fits version) :
    Cuts (DeleteGroupsRequest.decodeK version) 0 (DeleteGroupsRequest.wire version t) (DeleteGroupsRequest.ends version t 0) (DeleteGroupsRequest.cutAt version t 0) (DeleteGroupsRequest.cutAt version t 1) :=
  (.field (reads_stringArray h.GroupsNames) (fun _ => rfl) (fun _ => rfl) : Cuts _ 0 _ (DeleteGroupsRequest.ends version t 0) (DeleteGroupsRequest.cutAt version t 0) (DeleteGroupsRequest.cutAt version t 1))
theorem DeleteGroupsRequest.partsK (version : Int16) : Parts (DeleteGroupsRequest.decodeK version) (DeleteGroupsRequest.first 0) (DeleteGroupsRequest.first 1) (fun r y => (r = DeleteGroupsRequest.first 0 y)) :=
  (.field Longer.stringArray (fun _ => rfl) (fun _ _ => rfl) (fun _ _ => rfl) (fun _ => rfl) : Parts (KDec.field Dec.stringArray none (fun t x => { t with GroupsNames := x })) (DeleteGroupsRequest.first 0) (DeleteGroupsRequest.first 1) (fun r y => r = DeleteGroupsRequest.first 0 y))
theorem DeleteGroupsRequest.filled (version : Int16) : FilledStep 4 4295000070 (DeleteGroupsRequest.decode version) :=
  (FilledStep.field .stringArray).mono (by decide) (by decide)
theorem DeleteGroupsRequest.part_of (r y : DeleteGroupsRequest) (h : (r = DeleteGroupsRequest.first 0 y)) : DeleteGroupsRequest.Part r y :=
  match h with
    | h => ⟨0, by decide, h⟩
theorem DeleteGroupsRequest.keeps_holds : DeleteGroupsRequest.keeps.Holds DeleteGroupsRequest.layout :=
  KeptMsg.holds DeleteGroupsRequest.lawful DeleteGroupsRequest.sameK (stop := fun v t => DeleteGroupsRequest.ends v t 0) (c := fun v t => DeleteGroupsRequest.cutAt v t 0) (fun _ _ _ => rfl) DeleteGroupsRequest.cutsK (c0 := DeleteGroupsRequest.first 0) rfl DeleteGroupsRequest.partsK DeleteGroupsRequest.part_of DeleteGroupsRequest.filled (by decide) (by decide)

/-- message/messages.gen.go:10579-10590 `DeletableGroupResult42.Decode`, with the receiver kept -/
def DeletableGroupResult42.decodeK (_version : Int16) : KDec DeletableGroupResult42 :=
    KDec.field Dec.string [] (fun t x => { t with GroupId := x }) ;|>
    KDec.field Dec.int16 0 (fun t x => { t with ErrorCode := x })

/-- Where the fields of `DeletableGroupResult42` end. -/
def DeletableGroupResult42.ends (_version : Int16) (t : DeletableGroupResult42) : Nat → Nat :=
  Cut.ends 0 [Wire.string t.GroupId,
    Wire.int16 t.ErrorCode]

/-- What is left of `t` if only its first `n` bytes are there. -/
def DeletableGroupResult42.cut (version : Int16) (n : Nat) (t : DeletableGroupResult42) : DeletableGroupResult42 :=
  { GroupId := Cut.field n (t.ends version 0) t.GroupId [],
    ErrorCode := Cut.field n (t.ends version 1) t.ErrorCode 0 }

/-- The same after the first `k` statements of `Decode`. -/
def DeletableGroupResult42.cutAt (version : Int16) (t : DeletableGroupResult42) (k n : Nat) : DeletableGroupResult42 :=
  { GroupId := upto k 0 (Cut.field n (t.ends version 0) t.GroupId []) [],
    ErrorCode := upto k 1 (Cut.field n (t.ends version 1) t.ErrorCode 0) 0 }

/-- The first `k` fields of `y`, and zeros. -/
def DeletableGroupResult42.first (k : Nat) (y : DeletableGroupResult42) : DeletableGroupResult42 :=
  { GroupId := upto k 0 y.GroupId [],
    ErrorCode := upto k 1 y.ErrorCode 0 }

/-- `r` is a beginning of `y`, and zeros. -/
def DeletableGroupResult42.Part (r y : DeletableGroupResult42) : Prop :=
  (∃ k, k < 2 ∧ r = y.first k)

/-- `DeletableGroupResult42` with its receiver kept. -/
def DeletableGroupResult42.keeps : KeptMsg DeletableGroupResult42.type := { decode := DeletableGroupResult42.decodeK, cut := DeletableGroupResult42.cut, Part := DeletableGroupResult42.Part }

theorem DeletableGroupResult42.sameK (version : Int16) : KStep (DeletableGroupResult42.decodeK version) (DeletableGroupResult42.decode version) :=
  (KStep.field)
    |>.andThen (KStep.field)
theorem DeletableGroupResult42.cutsK (version : Int16) (t : DeletableGroupResult42) (h : t.Fits version) :
    Cuts (DeletableGroupResult42.decodeK version) 0 (DeletableGroupResult42.wire version t) (DeletableGroupResult42.ends version t 1) (DeletableGroupResult42.cutAt version t 0) (DeletableGroupResult42.cutAt version t 2) :=
  (.field (reads_string h.GroupId) (fun _ => rfl) (fun _ => rfl) : Cuts _ 0 _ (DeletableGroupResult42.ends version t 0) (DeletableGroupResult42.cutAt version t 0) (DeletableGroupResult42.cutAt version t 1))
    |>.andThen (.field (reads_int16 t.ErrorCode) (fun _ => rfl) (fun _ => rfl) : Cuts _ (DeletableGroupResult42.ends version t 0) _ (DeletableGroupResult42.ends version t 1) (DeletableGroupResult42.cutAt version t 1) (DeletableGroupResult42.cutAt version t 2))
theorem DeletableGroupResult42.partsK (version : Int16) : Parts (DeletableGroupResult42.decodeK version) (DeletableGroupResult42.first 0) (DeletableGroupResult42.first 2) (fun r y => ((r = DeletableGroupResult42.first 0 y) ∨ (r = DeletableGroupResult42.first 1 y))) :=
  (.field Longer.string (fun _ => rfl) (fun _ _ => rfl) (fun _ _ => rfl) (fun _ => rfl) : Parts (KDec.field Dec.string [] (fun t x => { t with GroupId := x })) (DeletableGroupResult42.first 0) (DeletableGroupResult42.first 1) (fun r y => r = DeletableGroupResult42.first 0 y))
    |>.andThen (.field Longer.int16 (fun _ => rfl) (fun _ _ => rfl) (fun _ _ => rfl) (fun _ => rfl) : Parts (KDec.field Dec.int16 0 (fun t x => { t with ErrorCode := x })) (DeletableGroupResult42.first 1) (DeletableGroupResult42.first 2) (fun r y => r = DeletableGroupResult42.first 1 y))
theorem DeletableGroupResult42.filled (version : Int16) : FilledStep 4 32772 (DeletableGroupResult42.decode version) :=
  ((FilledStep.field .string)
    |>.andThen (FilledStep.field .int16)).mono (by decide) (by decide)
theorem DeletableGroupResult42.part_of (r y : DeletableGroupResult42) (h : ((r = DeletableGroupResult42.first 0 y) ∨ (r = DeletableGroupResult42.first 1 y))) : DeletableGroupResult42.Part r y :=
  match h with
    | (.inl h) => ⟨0, by decide, h⟩
    | (.inr h) => ⟨1, by decide, h⟩
theorem DeletableGroupResult42.keeps_holds : DeletableGroupResult42.keeps.Holds DeletableGroupResult42.layout :=
  KeptMsg.holds DeletableGroupResult42.lawful DeletableGroupResult42.sameK (stop := fun v t => DeletableGroupResult42.ends v t 1) (c := fun v t => DeletableGroupResult42.cutAt v t 0) (fun _ _ _ => rfl) DeletableGroupResult42.cutsK (c0 := DeletableGroupResult42.first 0) rfl DeletableGroupResult42.partsK DeletableGroupResult42.part_of DeletableGroupResult42.filled (by decide) (by decide)

/-- message/messages.gen.go:10537-10557 `DeleteGroupsResponse.Decode`, with the receiver kept -/
def DeleteGroupsResponse.decodeK (version : Int16) : KDec DeleteGroupsResponse :=
    KDec.field Dec.int32 0 (fun t x => { t with ThrottleTimeMs := x }) ;|>
    KDec.fieldStructs (DeletableGroupResult42.decodeK version {}) {} (fun t x => { t with Results := x })

/-- Where the fields of `DeleteGroupsResponse` end. -/
def DeleteGroupsResponse.ends (version : Int16) (t : DeleteGroupsResponse) : Nat → Nat :=
  Cut.ends 0 [Wire.int32 t.ThrottleTimeMs,
    Wire.array (DeletableGroupResult42.wire version) t.Results]

/-- What is left of `t` if only its first `n` bytes are there. -/
def DeleteGroupsResponse.cut (version : Int16) (n : Nat) (t : DeleteGroupsResponse) : DeleteGroupsResponse :=
  { ThrottleTimeMs := Cut.field n (t.ends version 0) t.ThrottleTimeMs 0,
    Results := Cut.array n (t.ends version 0) (DeletableGroupResult42.wire version) (fun x => x.seen version {}) {} t.Results }

/-- The same after the first `k` statements of `Decode`. -/
def DeleteGroupsResponse.cutAt (version : Int16) (t : DeleteGroupsResponse) (k n : Nat) : DeleteGroupsResponse :=
  { ThrottleTimeMs := upto k 0 (Cut.field n (t.ends version 0) t.ThrottleTimeMs 0) 0,
    Results := upto k 1 (Cut.array n (t.ends version 0) (DeletableGroupResult42.wire version) (fun x => x.seen version {}) {} t.Results) none }

/-- The first `k` fields of `y`, and zeros. -/
def DeleteGroupsResponse.first (k : Nat) (y : DeleteGroupsResponse) : DeleteGroupsResponse :=
  { ThrottleTimeMs := upto k 0 y.ThrottleTimeMs 0,
    Results := upto k 1 y.Results none }

/-- `r` is a beginning of `y`, and zeros. -/
def DeleteGroupsResponse.Part (r y : DeleteGroupsResponse) : Prop :=
  (∃ k, k < 2 ∧ r = y.first k) ∨
    Cut.begun {} (fun t => t.Results) (fun t x => { t with Results := x }) (DeleteGroupsResponse.first 1) r y

/-- `DeleteGroupsResponse` with its receiver kept. -/
def DeleteGroupsResponse.keeps : KeptMsg DeleteGroupsResponse.type := { decode := DeleteGroupsResponse.decodeK, cut := DeleteGroupsResponse.cut, Part := DeleteGroupsResponse.Part }

theorem DeleteGroupsResponse.sameK (version : Int16) : KStep (DeleteGroupsResponse.decodeK version) (DeleteGroupsResponse.decode version) :=
  (KStep.field)
    |>.andThen (KStep.structs (fun _ => rfl) (DeletableGroupResult42.sameK version {}))
theorem DeleteGroupsResponse.cutsK (version : Int16) (t : DeleteGroupsResponse) (h : t.Fits version) :
    Cuts (DeleteGroupsResponse.decodeK version) 0 (DeleteGroupsResponse.wire version t) (DeleteGroupsResponse.ends version t 1) (DeleteGroupsResponse.cutAt version t 0) (DeleteGroupsResponse.cutAt version t 2) :=
  (.field (reads_int32 t.ThrottleTimeMs) (fun _ => rfl) (fun _ => rfl) : Cuts _ 0 _ (DeleteGroupsResponse.ends version t 0) (DeleteGroupsResponse.cutAt version t 0) (DeleteGroupsResponse.cutAt version t 1))
    |>.andThen (.structs (DeletableGroupResult42.sameK version {}) (fun x hx => DeletableGroupResult42.reads version x hx {}) h.Results (fun _ => rfl) (fun _ => rfl) : Cuts _ (DeleteGroupsResponse.ends version t 0) _ (DeleteGroupsResponse.ends version t 1) (DeleteGroupsResponse.cutAt version t 1) (DeleteGroupsResponse.cutAt version t 2))
theorem DeleteGroupsResponse.partsK (version : Int16) : Parts (DeleteGroupsResponse.decodeK version) (DeleteGroupsResponse.first 0) (DeleteGroupsResponse.first 2) (fun r y => ((r = DeleteGroupsResponse.first 0 y) ∨ (r = DeleteGroupsResponse.first 1 y ∨ Cut.begun {} (fun t => t.Results) (fun t x => { t with Results := x }) (DeleteGroupsResponse.first 1) r y))) :=
  (.field Longer.int32 (fun _ => rfl) (fun _ _ => rfl) (fun _ _ => rfl) (fun _ => rfl) : Parts (KDec.field Dec.int32 0 (fun t x => { t with ThrottleTimeMs := x })) (DeleteGroupsResponse.first 0) (DeleteGroupsResponse.first 1) (fun r y => r = DeleteGroupsResponse.first 0 y))
    |>.andThen (.structs (get := fun (t : DeleteGroupsResponse) => t.Results) ((DeletableGroupResult42.partsK version).longer {}) (fun _ => rfl) (fun _ => rfl) (fun _ _ => rfl) (fun _ _ => rfl) (fun _ _ => rfl) (fun _ => rfl) (fun _ => rfl) : Parts (KDec.fieldStructs (DeletableGroupResult42.decodeK version {}) {} (fun t x => { t with Results := x })) (DeleteGroupsResponse.first 1) (DeleteGroupsResponse.first 2) (fun r y => r = DeleteGroupsResponse.first 1 y ∨ Cut.begun {} (fun t => t.Results) (fun t x => { t with Results := x }) (DeleteGroupsResponse.first 1) r y))
theorem DeleteGroupsResponse.filled (version : Int16) : FilledStep 8 8589967368 (DeleteGroupsResponse.decode version) :=
  ((FilledStep.field .int32)
    |>.andThen (FilledStep.structs (DeletableGroupResult42.filled version {}))).mono (by decide) (by decide)
theorem DeleteGroupsResponse.part_of (r y : DeleteGroupsResponse) (h : ((r = DeleteGroupsResponse.first 0 y) ∨ (r = DeleteGroupsResponse.first 1 y ∨ Cut.begun {} (fun t => t.Results) (fun t x => { t with Results := x }) (DeleteGroupsResponse.first 1) r y))) : DeleteGroupsResponse.Part r y :=
  match h with
    | (.inl h) => .inl ⟨0, by decide, h⟩
    | (.inr (.inl h)) => .inl ⟨1, by decide, h⟩
    | (.inr (.inr h)) => (.inr h)
theorem DeleteGroupsResponse.keeps_holds : DeleteGroupsResponse.keeps.Holds DeleteGroupsResponse.layout :=
  KeptMsg.holds DeleteGroupsResponse.lawful DeleteGroupsResponse.sameK (stop := fun v t => DeleteGroupsResponse.ends v t 1) (c := fun v t => DeleteGroupsResponse.cutAt v t 0) (fun _ _ _ => rfl) DeleteGroupsResponse.cutsK (c0 := DeleteGroupsResponse.first 0) rfl DeleteGroupsResponse.partsK DeleteGroupsResponse.part_of DeleteGroupsResponse.filled (by decide) (by decide)

/-- The structures of the DeleteGroups messages. -/
def keptDeleteGroups : List (Σ (M : MsgType) (_ : Layout M), KeptMsg M) :=
  [⟨DeleteGroupsRequest.type, DeleteGroupsRequest.layout, DeleteGroupsRequest.keeps⟩,
   ⟨DeleteGroupsResponse.type, DeleteGroupsResponse.layout, DeleteGroupsResponse.keeps⟩,
   ⟨DeletableGroupResult42.type, DeletableGroupResult42.layout, DeletableGroupResult42.keeps⟩]
theorem keptDeleteGroups_holds : ∀ p ∈ keptDeleteGroups, p.2.2.Holds p.2.1 := by
  unfold keptDeleteGroups
  simp only [List.forall_mem_cons]
  exact ⟨DeleteGroupsRequest.keeps_holds, DeleteGroupsResponse.keeps_holds, DeletableGroupResult42.keeps_holds, fun _ h => absurd h (by simp)⟩

end Kafka.Msg
